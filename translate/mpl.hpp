// The parts of Boost.MPL, Boost.TypeTraits and the standard library the headers use, by their
// documentation. They are not part of the repository.
namespace boost
{
  namespace mpl
  {
    struct na { typedef na type; };
    struct integral_c_tag { typedef integral_c_tag type; };
    struct random_access_iterator_tag { typedef random_access_iterator_tag type; };

    template <int N>
    struct int_
    {
      typedef int_ type;
      typedef integral_c_tag tag;
      static const int value = N;
    };

    template <char C>
    struct char_
    {
      typedef char_ type;
      typedef integral_c_tag tag;
      static const char value = C;
    };

    template <bool B>
    struct bool_
    {
      typedef bool_ type;
      typedef integral_c_tag tag;
      static const bool value = B;
    };

    typedef bool_<true> true_;
    typedef bool_<false> false_;

    template <bool C, class T, class F>
    struct if_c { typedef T type; };

    template <class T, class F>
    struct if_c<false, T, F> { typedef F type; };

    template <class C, class T, class F>
    struct if_ : if_c<C::value, T, F> {};

    template <class C, class T, class F>
    struct eval_if : if_<C, T, F>::type {};

    template <class T>
    struct tag { typedef typename T::tag type; };

    template <class S>
    struct sequence_tag { typedef typename S::tag type; };

    template <class S>
    struct begin
    {
      typedef typename begin_impl<typename sequence_tag<S>::type>::template apply<S>::type type;
    };

    template <class S>
    struct end
    {
      typedef typename end_impl<typename sequence_tag<S>::type>::template apply<S>::type type;
    };

    template <class Tag>
    struct front_impl
    {
      template <class S>
      struct apply { typedef typename deref<typename begin<S>::type>::type type; };
    };

    template <class S>
    struct front : front_impl<typename sequence_tag<S>::type>::template apply<S> {};

    template <class Tag>
    struct empty_impl
    {
      template <class S>
      struct apply : boost::is_same<typename begin<S>::type, typename end<S>::type> {};
    };

    template <class S>
    struct empty : empty_impl<typename sequence_tag<S>::type>::template apply<S> {};

    template <class S>
    struct clear : clear_impl<typename sequence_tag<S>::type>::template apply<S> {};

    template <class S>
    struct pop_front : pop_front_impl<typename sequence_tag<S>::type>::template apply<S> {};

    template <class S>
    struct pop_back : pop_back_impl<typename sequence_tag<S>::type>::template apply<S> {};

    template <class S, class T>
    struct push_back : push_back_impl<typename sequence_tag<S>::type>::template apply<S, T> {};

    template <class S, class T>
    struct push_front : push_front_impl<typename sequence_tag<S>::type>::template apply<S, T> {};

    template <class A, class B>
    struct equal_to :
      equal_to_impl<typename tag<A>::type, typename tag<B>::type>::template apply<A, B>::type
    {};

    template <class A, class B>
    struct less :
      less_impl<typename tag<A>::type, typename tag<B>::type>::template apply<A, B>::type
    {};

    template <class TagA, class TagB>
    struct less_equal_impl;

    template <>
    struct less_equal_impl<integral_c_tag, integral_c_tag>
    {
      template <class A, class B>
      struct apply : bool_<(A::value <= B::value)> {};
    };

    template <class A, class B>
    struct less_equal :
      less_equal_impl<typename tag<A>::type, typename tag<B>::type>::template apply<A, B>::type
    {};

    template <class I, class N>
    struct advance : advance_impl<typename tag<I>::type>::template apply<I, N> {};

    template <class A, class B>
    struct distance : distance_impl<typename tag<A>::type>::template apply<A, B> {};

    template <class Tag>
    struct size_impl
    {
      template <class S>
      struct apply : distance<typename begin<S>::type, typename end<S>::type> {};
    };

    template <class S>
    struct size : size_impl<typename sequence_tag<S>::type>::template apply<S> {};

    template <class Tag>
    struct back_impl
    {
      template <class S>
      struct apply { typedef typename deref<typename prior<typename end<S>::type>::type>::type type; };
    };

    template <class S>
    struct back : back_impl<typename sequence_tag<S>::type>::template apply<S> {};

    template <class Tag>
    struct at_impl
    {
      template <class S, class N>
      struct apply
      {
        typedef typename deref<typename advance<typename begin<S>::type, N>::type>::type type;
      };
    };

    template <class S, class N>
    struct at : at_impl<typename sequence_tag<S>::type>::template apply<S, N> {};

    template <class S, int N>
    struct at_c : at_impl<typename sequence_tag<S>::type>::template apply<S, int_<N> > {};

    struct vector_tag { typedef vector_tag type; };

    template <class... Ts>
    struct vector
    {
      typedef vector type;
      typedef vector_tag tag;
    };

    template <class S, class T>
    struct vector_push_back;

    template <class... Ts, class T>
    struct vector_push_back<vector<Ts...>, T> : vector<Ts..., T> {};

    template <class S, class T>
    struct vector_push_front;

    template <class... Ts, class T>
    struct vector_push_front<vector<Ts...>, T> : vector<T, Ts...> {};

    template <>
    struct push_back_impl<vector_tag>
    {
      template <class S, class T>
      struct apply : vector_push_back<typename S::type, T> {};
    };

    template <>
    struct push_front_impl<vector_tag>
    {
      template <class S, class T>
      struct apply : vector_push_front<typename S::type, T> {};
    };

    template <class V>
    struct vector_front;

    template <class T, class... Ts>
    struct vector_front<vector<T, Ts...> > { typedef T type; };

    template <>
    struct front_impl<vector_tag>
    {
      template <class S>
      struct apply : vector_front<typename S::type> {};
    };

    template <class V>
    struct vector_back;

    template <class T>
    struct vector_back<vector<T> > { typedef T type; };

    template <class T, class U, class... Ts>
    struct vector_back<vector<T, U, Ts...> > : vector_back<vector<U, Ts...> > {};

    template <>
    struct back_impl<vector_tag>
    {
      template <class S>
      struct apply : vector_back<typename S::type> {};
    };

    template <class V>
    struct vector_pop_front;

    template <class T, class... Ts>
    struct vector_pop_front<vector<T, Ts...> > : vector<Ts...> {};

    template <>
    struct pop_front_impl<vector_tag>
    {
      template <class S>
      struct apply : vector_pop_front<typename S::type> {};
    };

    // The classes na at the end of the arguments of vector are not elements of it.
    template <class V, class State, class Op>
    struct vector_fold;

    template <class State, class Op>
    struct vector_fold<vector<>, State, Op> { typedef State type; };

    template <class... Ts, class State, class Op>
    struct vector_fold<vector<na, Ts...>, State, Op> { typedef State type; };

    template <class T, class... Ts, class State, class Op>
    struct vector_fold<vector<T, Ts...>, State, Op> :
      vector_fold<vector<Ts...>, typename Op::template apply<State, T>::type, Op>
    {};

    template <class S, class State, class Op>
    struct fold : vector_fold<typename S::type, State, typename lambda<Op>::type> {};

    template <class A, class B>
    struct pair
    {
      typedef pair type;
      typedef A first;
      typedef B second;
    };

    // A map is the list of its pairs, the ones inserted last first.
    struct map_tag { typedef map_tag type; };

    template <class... Ps>
    struct map
    {
      typedef map type;
      typedef map_tag tag;
    };

    template <class M, class P>
    struct map_insert;

    template <class... Ps, class P>
    struct map_insert<map<Ps...>, P> : map<P, Ps...> {};

    template <class M, class P>
    struct insert : map_insert<typename M::type, P> {};

    struct void_ { typedef void_ type; };

    template <class M, class K>
    struct map_at;

    template <class K>
    struct map_at<map<>, K> { typedef void_ type; };

    template <class K, class T, class... Ps>
    struct map_at<map<pair<K, T>, Ps...>, K> { typedef T type; };

    template <class L, class T, class... Ps, class K>
    struct map_at<map<pair<L, T>, Ps...>, K> : map_at<map<Ps...>, K> {};

    template <>
    struct at_impl<map_tag>
    {
      template <class M, class K>
      struct apply : map_at<typename M::type, K> {};
    };

    template <class V, int N>
    struct vector_at;

    template <class T, class... Ts>
    struct vector_at<vector<T, Ts...>, 0> { typedef T type; };

    template <class T, class... Ts, int N>
    struct vector_at<vector<T, Ts...>, N> : vector_at<vector<Ts...>, N - 1> {};

    template <>
    struct at_impl<vector_tag>
    {
      template <class S, class N>
      struct apply : vector_at<typename S::type, N::value> {};
    };

    template <class M, class K>
    struct map_has_key;

    template <class K>
    struct map_has_key<map<>, K> : false_ {};

    template <class K, class T, class... Ps>
    struct map_has_key<map<pair<K, T>, Ps...>, K> : true_ {};

    template <class L, class T, class... Ps, class K>
    struct map_has_key<map<pair<L, T>, Ps...>, K> : map_has_key<map<Ps...>, K> {};

    template <class M, class K>
    struct has_key : map_has_key<typename M::type, K> {};

    // A metafunction class is no placeholder expression.
    template <class F>
    struct lambda { typedef F type; };
  }

  template <class A, class B>
  struct is_same : mpl::false_ {};

  template <class T>
  struct is_same<T, T> : mpl::true_ {};
}

namespace std
{
  template <bool C, class T, class F>
  struct conditional { typedef T type; };

  template <class T, class F>
  struct conditional<false, T, F> { typedef F type; };
}

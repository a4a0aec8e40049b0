import Verif.Model.Templates.Syntax
/-!
# What the headers use of other libraries

Boost.MPL, Boost.TypeTraits and the standard library are not part of the repository. These are their templates as
documented, with what the headers use of them; `mpl::deque` and `mpl::list` are not distinguished from
`mpl::vector`, nor `std::is_same` from `boost::is_same`. The templates of
`user.hpp` are the classes that represent values of a user of the library. Both texts are in `/verif/translate`.
-/

namespace Metaparse.Tmpl.Hdr

/-- (prelude) `mpl.hpp:7-7`
```
struct na { typedef na type; };
``` -/
def mpl_na : List Spec :=
  [
  ⟨[],
    [],
    [.type .type (.self 0)]⟩]

/-- (prelude) `mpl.hpp:8-8`
```
struct integral_c_tag { typedef integral_c_tag type; };
``` -/
def mpl_integral_c_tag : List Spec :=
  [
  ⟨[],
    [],
    [.type .type (.self 0)]⟩]

/-- (prelude) `mpl.hpp:9-9`
```
struct random_access_iterator_tag { typedef random_access_iterator_tag type; };
``` -/
def mpl_random_access_iterator_tag : List Spec :=
  [
  ⟨[],
    [],
    [.type .type (.self 0)]⟩]

/-- (prelude) `mpl.hpp:11-17`
```
template <int N>
struct int_
{
  typedef int_ type;
  typedef integral_c_tag tag;
  static const int value = N;
};
``` -/
def mpl_int_ : List Spec :=
  [
  ⟨[.var .N],
    [],
    [.type .type (.self 0),
     .type .tag (.cls .mpl_integral_c_tag []),
     .type .value (.var .N)]⟩]

/-- (prelude) `mpl.hpp:19-25`
```
template <char C>
struct char_
{
  typedef char_ type;
  typedef integral_c_tag tag;
  static const char value = C;
};
``` -/
def mpl_char_ : List Spec :=
  [
  ⟨[.var .C],
    [],
    [.type .type (.self 0),
     .type .tag (.cls .mpl_integral_c_tag []),
     .type .value (.var .C)]⟩]

/-- (prelude) `mpl.hpp:27-33`
```
template <bool B>
struct bool_
{
  typedef bool_ type;
  typedef integral_c_tag tag;
  static const bool value = B;
};
``` -/
def mpl_bool_ : List Spec :=
  [
  ⟨[.var .B],
    [],
    [.type .type (.self 0),
     .type .tag (.cls .mpl_integral_c_tag []),
     .type .value (.var .B)]⟩]

/-- (prelude) `mpl.hpp:38-39`
```
template <bool C, class T, class F>
struct if_c { typedef T type; };
```
(prelude) `mpl.hpp:41-42`
```
template <class T, class F>
struct if_c<false, T, F> { typedef F type; };
``` -/
def mpl_if_c : List Spec :=
  [
  ⟨[.num 0, .var .T, .var .F],
    [],
    [.type .type (.var .F)]⟩,
  ⟨[.var .C, .var .T, .var .F],
    [],
    [.type .type (.var .T)]⟩]

/-- (prelude) `mpl.hpp:44-45`
```
template <class C, class T, class F>
struct if_ : if_c<C::value, T, F> {};
``` -/
def mpl_if_ : List Spec :=
  [
  ⟨[.var .C, .var .T, .var .F],
    [.cls .mpl_if_c [.mem (.var .C) .value, .var .T, .var .F]],
    []⟩]

/-- (prelude) `mpl.hpp:47-48`
```
template <class C, class T, class F>
struct eval_if : if_<C, T, F>::type {};
``` -/
def mpl_eval_if : List Spec :=
  [
  ⟨[.var .C, .var .T, .var .F],
    [.mem (.cls .mpl_if_ [.var .C, .var .T, .var .F]) .type],
    []⟩]

/-- (prelude) `mpl.hpp:50-51`
```
template <class T>
struct tag { typedef typename T::tag type; };
``` -/
def mpl_tag : List Spec :=
  [
  ⟨[.var .T],
    [],
    [.type .type (.mem (.var .T) .tag)]⟩]

/-- (prelude) `mpl.hpp:53-54`
```
template <class S>
struct sequence_tag { typedef typename S::tag type; };
``` -/
def mpl_sequence_tag : List Spec :=
  [
  ⟨[.var .S],
    [],
    [.type .type (.mem (.var .S) .tag)]⟩]

/-- (prelude) `mpl.hpp:56-60`
```
template <class S>
struct begin
{
  typedef typename begin_impl<typename sequence_tag<S>::type>::template apply<S>::type type;
};
``` -/
def mpl_begin : List Spec :=
  [
  ⟨[.var .S],
    [],
    [.type .type (.mem (.memT (.cls .mpl_begin_impl [.mem (.cls .mpl_sequence_tag [.var .S]) .type]) .apply [.var .S]) .type)]⟩]

/-- (prelude) `mpl.hpp:62-66`
```
template <class S>
struct end
{
  typedef typename end_impl<typename sequence_tag<S>::type>::template apply<S>::type type;
};
``` -/
def mpl_end : List Spec :=
  [
  ⟨[.var .S],
    [],
    [.type .type (.mem (.memT (.cls .mpl_end_impl [.mem (.cls .mpl_sequence_tag [.var .S]) .type]) .apply [.var .S]) .type)]⟩]

/-- (prelude) `mpl.hpp:68-73`
```
template <class Tag>
struct front_impl
{
  template <class S>
  struct apply { typedef typename deref<typename begin<S>::type>::type type; };
};
```
(prelude) `mpl.hpp:211-216`
```
template <>
struct front_impl<vector_tag>
{
  template <class S>
  struct apply : vector_front<typename S::type> {};
};
``` -/
def mpl_front_impl : List Spec :=
  [
  ⟨[.cls .mpl_vector_tag []],
    [],
    [.tmpl .apply [
      ⟨[.var .S],
        [.cls .mpl_vector_front [.mem (.var .S) .type]],
        []⟩]]⟩,
  ⟨[.var .Tag],
    [],
    [.tmpl .apply [
      ⟨[.var .S],
        [],
        [.type .type (.mem (.cls .mpl_deref [.mem (.cls .mpl_begin [.var .S]) .type]) .type)]⟩]]⟩]

/-- (prelude) `mpl.hpp:75-76`
```
template <class S>
struct front : front_impl<typename sequence_tag<S>::type>::template apply<S> {};
``` -/
def mpl_front : List Spec :=
  [
  ⟨[.var .S],
    [.memT (.cls .mpl_front_impl [.mem (.cls .mpl_sequence_tag [.var .S]) .type]) .apply [.var .S]],
    []⟩]

/-- (prelude) `mpl.hpp:78-83`
```
template <class Tag>
struct empty_impl
{
  template <class S>
  struct apply : boost::is_same<typename begin<S>::type, typename end<S>::type> {};
};
``` -/
def mpl_empty_impl : List Spec :=
  [
  ⟨[.var .Tag],
    [],
    [.tmpl .apply [
      ⟨[.var .S],
        [.cls .boost_is_same [.mem (.cls .mpl_begin [.var .S]) .type, .mem (.cls .mpl_end [.var .S]) .type]],
        []⟩]]⟩]

/-- (prelude) `mpl.hpp:85-86`
```
template <class S>
struct empty : empty_impl<typename sequence_tag<S>::type>::template apply<S> {};
``` -/
def mpl_empty : List Spec :=
  [
  ⟨[.var .S],
    [.memT (.cls .mpl_empty_impl [.mem (.cls .mpl_sequence_tag [.var .S]) .type]) .apply [.var .S]],
    []⟩]

/-- (prelude) `mpl.hpp:88-89`
```
template <class S>
struct clear : clear_impl<typename sequence_tag<S>::type>::template apply<S> {};
``` -/
def mpl_clear : List Spec :=
  [
  ⟨[.var .S],
    [.memT (.cls .mpl_clear_impl [.mem (.cls .mpl_sequence_tag [.var .S]) .type]) .apply [.var .S]],
    []⟩]

/-- (prelude) `mpl.hpp:91-92`
```
template <class S>
struct pop_front : pop_front_impl<typename sequence_tag<S>::type>::template apply<S> {};
``` -/
def mpl_pop_front : List Spec :=
  [
  ⟨[.var .S],
    [.memT (.cls .mpl_pop_front_impl [.mem (.cls .mpl_sequence_tag [.var .S]) .type]) .apply [.var .S]],
    []⟩]

/-- (prelude) `mpl.hpp:94-95`
```
template <class S>
struct pop_back : pop_back_impl<typename sequence_tag<S>::type>::template apply<S> {};
``` -/
def mpl_pop_back : List Spec :=
  [
  ⟨[.var .S],
    [.memT (.cls .mpl_pop_back_impl [.mem (.cls .mpl_sequence_tag [.var .S]) .type]) .apply [.var .S]],
    []⟩]

/-- (prelude) `mpl.hpp:97-98`
```
template <class S, class T>
struct push_back : push_back_impl<typename sequence_tag<S>::type>::template apply<S, T> {};
``` -/
def mpl_push_back : List Spec :=
  [
  ⟨[.var .S, .var .T],
    [.memT (.cls .mpl_push_back_impl [.mem (.cls .mpl_sequence_tag [.var .S]) .type]) .apply [.var .S, .var .T]],
    []⟩]

/-- (prelude) `mpl.hpp:100-101`
```
template <class S, class T>
struct push_front : push_front_impl<typename sequence_tag<S>::type>::template apply<S, T> {};
``` -/
def mpl_push_front : List Spec :=
  [
  ⟨[.var .S, .var .T],
    [.memT (.cls .mpl_push_front_impl [.mem (.cls .mpl_sequence_tag [.var .S]) .type]) .apply [.var .S, .var .T]],
    []⟩]

/-- (prelude) `mpl.hpp:103-106`
```
template <class A, class B>
struct equal_to :
  equal_to_impl<typename tag<A>::type, typename tag<B>::type>::template apply<A, B>::type
{};
``` -/
def mpl_equal_to : List Spec :=
  [
  ⟨[.var .A, .var .B],
    [.mem (.memT (.cls .mpl_equal_to_impl [.mem (.cls .mpl_tag [.var .A]) .type, .mem (.cls .mpl_tag [.var .B]) .type]) .apply [.var .A, .var .B]) .type],
    []⟩]

/-- (prelude) `mpl.hpp:108-111`
```
template <class A, class B>
struct less :
  less_impl<typename tag<A>::type, typename tag<B>::type>::template apply<A, B>::type
{};
``` -/
def mpl_less : List Spec :=
  [
  ⟨[.var .A, .var .B],
    [.mem (.memT (.cls .mpl_less_impl [.mem (.cls .mpl_tag [.var .A]) .type, .mem (.cls .mpl_tag [.var .B]) .type]) .apply [.var .A, .var .B]) .type],
    []⟩]

/-- (prelude) `mpl.hpp:116-121`
```
template <>
struct less_equal_impl<integral_c_tag, integral_c_tag>
{
  template <class A, class B>
  struct apply : bool_<(A::value <= B::value)> {};
};
```
`source_position.hpp:138-150`
```
template <>
struct less_equal_impl<
  boost::metaparse::v1::source_position_tag,
  boost::metaparse::v1::source_position_tag
>
{
  typedef less_equal_impl type;

  template <class A, class B>
  struct apply :
    bool_<less<A, B>::type::value || equal_to<A, B>::type::value>
  {};
};
``` -/
def mpl_less_equal_impl : List Spec :=
  [
  ⟨[.cls .mpl_integral_c_tag [], .cls .mpl_integral_c_tag []],
    [],
    [.tmpl .apply [
      ⟨[.var .A, .var .B],
        [.cls .mpl_bool_ [.op .le (.mem (.var .A) .value) (.mem (.var .B) .value)]],
        []⟩]]⟩,
  ⟨[.cls .source_position_tag [], .cls .source_position_tag []],
    [],
    [.type .type (.self 0),
     .tmpl .apply [
      ⟨[.var .A, .var .B],
        [.cls .mpl_bool_ [.op .or (.mem (.mem (.cls .mpl_less [.var .A, .var .B]) .type) .value) (.mem (.mem (.cls .mpl_equal_to [.var .A, .var .B]) .type) .value)]],
        []⟩]]⟩]

/-- (prelude) `mpl.hpp:123-126`
```
template <class A, class B>
struct less_equal :
  less_equal_impl<typename tag<A>::type, typename tag<B>::type>::template apply<A, B>::type
{};
``` -/
def mpl_less_equal : List Spec :=
  [
  ⟨[.var .A, .var .B],
    [.mem (.memT (.cls .mpl_less_equal_impl [.mem (.cls .mpl_tag [.var .A]) .type, .mem (.cls .mpl_tag [.var .B]) .type]) .apply [.var .A, .var .B]) .type],
    []⟩]

/-- (prelude) `mpl.hpp:128-129`
```
template <class I, class N>
struct advance : advance_impl<typename tag<I>::type>::template apply<I, N> {};
``` -/
def mpl_advance : List Spec :=
  [
  ⟨[.var .I, .var .N],
    [.memT (.cls .mpl_advance_impl [.mem (.cls .mpl_tag [.var .I]) .type]) .apply [.var .I, .var .N]],
    []⟩]

/-- (prelude) `mpl.hpp:131-132`
```
template <class A, class B>
struct distance : distance_impl<typename tag<A>::type>::template apply<A, B> {};
``` -/
def mpl_distance : List Spec :=
  [
  ⟨[.var .A, .var .B],
    [.memT (.cls .mpl_distance_impl [.mem (.cls .mpl_tag [.var .A]) .type]) .apply [.var .A, .var .B]],
    []⟩]

/-- (prelude) `mpl.hpp:134-139`
```
template <class Tag>
struct size_impl
{
  template <class S>
  struct apply : distance<typename begin<S>::type, typename end<S>::type> {};
};
``` -/
def mpl_size_impl : List Spec :=
  [
  ⟨[.var .Tag],
    [],
    [.tmpl .apply [
      ⟨[.var .S],
        [.cls .mpl_distance [.mem (.cls .mpl_begin [.var .S]) .type, .mem (.cls .mpl_end [.var .S]) .type]],
        []⟩]]⟩]

/-- (prelude) `mpl.hpp:141-142`
```
template <class S>
struct size : size_impl<typename sequence_tag<S>::type>::template apply<S> {};
``` -/
def mpl_size : List Spec :=
  [
  ⟨[.var .S],
    [.memT (.cls .mpl_size_impl [.mem (.cls .mpl_sequence_tag [.var .S]) .type]) .apply [.var .S]],
    []⟩]

/-- (prelude) `mpl.hpp:144-149`
```
template <class Tag>
struct back_impl
{
  template <class S>
  struct apply { typedef typename deref<typename prior<typename end<S>::type>::type>::type type; };
};
```
(prelude) `mpl.hpp:227-232`
```
template <>
struct back_impl<vector_tag>
{
  template <class S>
  struct apply : vector_back<typename S::type> {};
};
``` -/
def mpl_back_impl : List Spec :=
  [
  ⟨[.cls .mpl_vector_tag []],
    [],
    [.tmpl .apply [
      ⟨[.var .S],
        [.cls .mpl_vector_back [.mem (.var .S) .type]],
        []⟩]]⟩,
  ⟨[.var .Tag],
    [],
    [.tmpl .apply [
      ⟨[.var .S],
        [],
        [.type .type (.mem (.cls .mpl_deref [.mem (.cls .mpl_prior [.mem (.cls .mpl_end [.var .S]) .type]) .type]) .type)]⟩]]⟩]

/-- (prelude) `mpl.hpp:151-152`
```
template <class S>
struct back : back_impl<typename sequence_tag<S>::type>::template apply<S> {};
``` -/
def mpl_back : List Spec :=
  [
  ⟨[.var .S],
    [.memT (.cls .mpl_back_impl [.mem (.cls .mpl_sequence_tag [.var .S]) .type]) .apply [.var .S]],
    []⟩]

/-- (prelude) `mpl.hpp:154-162`
```
template <class Tag>
struct at_impl
{
  template <class S, class N>
  struct apply
  {
    typedef typename deref<typename advance<typename begin<S>::type, N>::type>::type type;
  };
};
```
(prelude) `mpl.hpp:306-311`
```
template <>
struct at_impl<map_tag>
{
  template <class M, class K>
  struct apply : map_at<typename M::type, K> {};
};
```
(prelude) `mpl.hpp:322-327`
```
template <>
struct at_impl<vector_tag>
{
  template <class S, class N>
  struct apply : vector_at<typename S::type, N::value> {};
};
``` -/
def mpl_at_impl : List Spec :=
  [
  ⟨[.cls .mpl_map_tag []],
    [],
    [.tmpl .apply [
      ⟨[.var .M, .var .K],
        [.cls .mpl_map_at [.mem (.var .M) .type, .var .K]],
        []⟩]]⟩,
  ⟨[.cls .mpl_vector_tag []],
    [],
    [.tmpl .apply [
      ⟨[.var .S, .var .N],
        [.cls .mpl_vector_at [.mem (.var .S) .type, .mem (.var .N) .value]],
        []⟩]]⟩,
  ⟨[.var .Tag],
    [],
    [.tmpl .apply [
      ⟨[.var .S, .var .N],
        [],
        [.type .type (.mem (.cls .mpl_deref [.mem (.cls .mpl_advance [.mem (.cls .mpl_begin [.var .S]) .type, .var .N]) .type]) .type)]⟩]]⟩]

/-- (prelude) `mpl.hpp:164-165`
```
template <class S, class N>
struct at : at_impl<typename sequence_tag<S>::type>::template apply<S, N> {};
``` -/
def mpl_at : List Spec :=
  [
  ⟨[.var .S, .var .N],
    [.memT (.cls .mpl_at_impl [.mem (.cls .mpl_sequence_tag [.var .S]) .type]) .apply [.var .S, .var .N]],
    []⟩]

/-- (prelude) `mpl.hpp:167-168`
```
template <class S, int N>
struct at_c : at_impl<typename sequence_tag<S>::type>::template apply<S, int_<N> > {};
``` -/
def mpl_at_c : List Spec :=
  [
  ⟨[.var .S, .var .N],
    [.memT (.cls .mpl_at_impl [.mem (.cls .mpl_sequence_tag [.var .S]) .type]) .apply [.var .S, .cls .mpl_int_ [.var .N]]],
    []⟩]

/-- (prelude) `mpl.hpp:170-170`
```
struct vector_tag { typedef vector_tag type; };
``` -/
def mpl_vector_tag : List Spec :=
  [
  ⟨[],
    [],
    [.type .type (.self 0)]⟩]

/-- (prelude) `mpl.hpp:172-177`
```
template <class... Ts>
struct vector
{
  typedef vector type;
  typedef vector_tag tag;
};
``` -/
def mpl_vector : List Spec :=
  [
  ⟨[.pack .Ts],
    [],
    [.type .type (.self 0),
     .type .tag (.cls .mpl_vector_tag [])]⟩]

/-- (prelude) `mpl.hpp:182-183`
```
template <class... Ts, class T>
struct vector_push_back<vector<Ts...>, T> : vector<Ts..., T> {};
``` -/
def mpl_vector_push_back : List Spec :=
  [
  ⟨[.cls .mpl_vector [.pack .Ts], .var .T],
    [.cls .mpl_vector [.spread .Ts, .var .T]],
    []⟩]

/-- (prelude) `mpl.hpp:188-189`
```
template <class... Ts, class T>
struct vector_push_front<vector<Ts...>, T> : vector<T, Ts...> {};
``` -/
def mpl_vector_push_front : List Spec :=
  [
  ⟨[.cls .mpl_vector [.pack .Ts], .var .T],
    [.cls .mpl_vector [.var .T, .spread .Ts]],
    []⟩]

/-- (prelude) `mpl.hpp:191-196`
```
template <>
struct push_back_impl<vector_tag>
{
  template <class S, class T>
  struct apply : vector_push_back<typename S::type, T> {};
};
```
`cpp11/string.hpp:54-66`
```
template <>
struct push_back_impl<boost::metaparse::v1::string_tag>
{
  typedef push_back_impl type;

  template <class S, class C>
  struct apply :
    boost::metaparse::v1::impl::push_back_c<
      typename S::type,
      C::type::value
    >
  {};
};
``` -/
def mpl_push_back_impl : List Spec :=
  [
  ⟨[.cls .mpl_vector_tag []],
    [],
    [.tmpl .apply [
      ⟨[.var .S, .var .T],
        [.cls .mpl_vector_push_back [.mem (.var .S) .type, .var .T]],
        []⟩]]⟩,
  ⟨[.cls .string_tag []],
    [],
    [.type .type (.self 0),
     .tmpl .apply [
      ⟨[.var .S, .var .C],
        [.cls .impl_push_back_c [.mem (.var .S) .type, .mem (.mem (.var .C) .type) .value]],
        []⟩]]⟩]

/-- (prelude) `mpl.hpp:198-203`
```
template <>
struct push_front_impl<vector_tag>
{
  template <class S, class T>
  struct apply : vector_push_front<typename S::type, T> {};
};
```
`cpp11/string.hpp:85-97`
```
template <>
struct push_front_impl<boost::metaparse::v1::string_tag>
{
  typedef push_front_impl type;

  template <class S, class C>
  struct apply :
    boost::metaparse::v1::impl::push_front_c<
      typename S::type,
      C::type::value
    >
  {};
};
``` -/
def mpl_push_front_impl : List Spec :=
  [
  ⟨[.cls .mpl_vector_tag []],
    [],
    [.tmpl .apply [
      ⟨[.var .S, .var .T],
        [.cls .mpl_vector_push_front [.mem (.var .S) .type, .var .T]],
        []⟩]]⟩,
  ⟨[.cls .string_tag []],
    [],
    [.type .type (.self 0),
     .tmpl .apply [
      ⟨[.var .S, .var .C],
        [.cls .impl_push_front_c [.mem (.var .S) .type, .mem (.mem (.var .C) .type) .value]],
        []⟩]]⟩]

/-- (prelude) `mpl.hpp:208-209`
```
template <class T, class... Ts>
struct vector_front<vector<T, Ts...> > { typedef T type; };
``` -/
def mpl_vector_front : List Spec :=
  [
  ⟨[.cls .mpl_vector [.var .T, .pack .Ts]],
    [],
    [.type .type (.var .T)]⟩]

/-- (prelude) `mpl.hpp:221-222`
```
template <class T>
struct vector_back<vector<T> > { typedef T type; };
```
(prelude) `mpl.hpp:224-225`
```
template <class T, class U, class... Ts>
struct vector_back<vector<T, U, Ts...> > : vector_back<vector<U, Ts...> > {};
``` -/
def mpl_vector_back : List Spec :=
  [
  ⟨[.cls .mpl_vector [.var .T]],
    [],
    [.type .type (.var .T)]⟩,
  ⟨[.cls .mpl_vector [.var .T, .var .U, .pack .Ts]],
    [.cls .mpl_vector_back [.cls .mpl_vector [.var .U, .spread .Ts]]],
    []⟩]

/-- (prelude) `mpl.hpp:237-238`
```
template <class T, class... Ts>
struct vector_pop_front<vector<T, Ts...> > : vector<Ts...> {};
``` -/
def mpl_vector_pop_front : List Spec :=
  [
  ⟨[.cls .mpl_vector [.var .T, .pack .Ts]],
    [.cls .mpl_vector [.spread .Ts]],
    []⟩]

/-- (prelude) `mpl.hpp:240-245`
```
template <>
struct pop_front_impl<vector_tag>
{
  template <class S>
  struct apply : vector_pop_front<typename S::type> {};
};
```
`cpp11/string.hpp:103-110`
```
template <>
struct pop_front_impl<boost::metaparse::v1::string_tag>
{
  typedef pop_front_impl type;

  template <class S>
  struct apply : boost::metaparse::v1::impl::pop_front<S> {};
};
``` -/
def mpl_pop_front_impl : List Spec :=
  [
  ⟨[.cls .mpl_vector_tag []],
    [],
    [.tmpl .apply [
      ⟨[.var .S],
        [.cls .mpl_vector_pop_front [.mem (.var .S) .type]],
        []⟩]]⟩,
  ⟨[.cls .string_tag []],
    [],
    [.type .type (.self 0),
     .tmpl .apply [
      ⟨[.var .S],
        [.cls .impl_pop_front [.var .S]],
        []⟩]]⟩]

/-- (prelude) `mpl.hpp:251-252`
```
template <class State, class Op>
struct vector_fold<vector<>, State, Op> { typedef State type; };
```
(prelude) `mpl.hpp:254-255`
```
template <class... Ts, class State, class Op>
struct vector_fold<vector<na, Ts...>, State, Op> { typedef State type; };
```
(prelude) `mpl.hpp:257-260`
```
template <class T, class... Ts, class State, class Op>
struct vector_fold<vector<T, Ts...>, State, Op> :
  vector_fold<vector<Ts...>, typename Op::template apply<State, T>::type, Op>
{};
``` -/
def mpl_vector_fold : List Spec :=
  [
  ⟨[.cls .mpl_vector [], .var .State, .var .Op],
    [],
    [.type .type (.var .State)]⟩,
  ⟨[.cls .mpl_vector [.cls .mpl_na [], .pack .Ts], .var .State, .var .Op],
    [],
    [.type .type (.var .State)]⟩,
  ⟨[.cls .mpl_vector [.var .T, .pack .Ts], .var .State, .var .Op],
    [.cls .mpl_vector_fold [.cls .mpl_vector [.spread .Ts], .mem (.memT (.var .Op) .apply [.var .State, .var .T]) .type, .var .Op]],
    []⟩]

/-- (prelude) `mpl.hpp:262-263`
```
template <class S, class State, class Op>
struct fold : vector_fold<typename S::type, State, typename lambda<Op>::type> {};
``` -/
def mpl_fold : List Spec :=
  [
  ⟨[.var .S, .var .State, .var .Op],
    [.cls .mpl_vector_fold [.mem (.var .S) .type, .var .State, .mem (.cls .mpl_lambda [.var .Op]) .type]],
    []⟩]

/-- (prelude) `mpl.hpp:265-271`
```
template <class A, class B>
struct pair
{
  typedef pair type;
  typedef A first;
  typedef B second;
};
``` -/
def mpl_pair : List Spec :=
  [
  ⟨[.var .A, .var .B],
    [],
    [.type .type (.self 0),
     .type .first (.var .A),
     .type .second (.var .B)]⟩]

/-- (prelude) `mpl.hpp:274-274`
```
struct map_tag { typedef map_tag type; };
``` -/
def mpl_map_tag : List Spec :=
  [
  ⟨[],
    [],
    [.type .type (.self 0)]⟩]

/-- (prelude) `mpl.hpp:276-281`
```
template <class... Ps>
struct map
{
  typedef map type;
  typedef map_tag tag;
};
``` -/
def mpl_map : List Spec :=
  [
  ⟨[.pack .Ps],
    [],
    [.type .type (.self 0),
     .type .tag (.cls .mpl_map_tag [])]⟩]

/-- (prelude) `mpl.hpp:286-287`
```
template <class... Ps, class P>
struct map_insert<map<Ps...>, P> : map<P, Ps...> {};
``` -/
def mpl_map_insert : List Spec :=
  [
  ⟨[.cls .mpl_map [.pack .Ps], .var .P],
    [.cls .mpl_map [.var .P, .spread .Ps]],
    []⟩]

/-- (prelude) `mpl.hpp:289-290`
```
template <class M, class P>
struct insert : map_insert<typename M::type, P> {};
``` -/
def mpl_insert : List Spec :=
  [
  ⟨[.var .M, .var .P],
    [.cls .mpl_map_insert [.mem (.var .M) .type, .var .P]],
    []⟩]

/-- (prelude) `mpl.hpp:292-292`
```
struct void_ { typedef void_ type; };
``` -/
def mpl_void_ : List Spec :=
  [
  ⟨[],
    [],
    [.type .type (.self 0)]⟩]

/-- (prelude) `mpl.hpp:297-298`
```
template <class K>
struct map_at<map<>, K> { typedef void_ type; };
```
(prelude) `mpl.hpp:300-301`
```
template <class K, class T, class... Ps>
struct map_at<map<pair<K, T>, Ps...>, K> { typedef T type; };
```
(prelude) `mpl.hpp:303-304`
```
template <class L, class T, class... Ps, class K>
struct map_at<map<pair<L, T>, Ps...>, K> : map_at<map<Ps...>, K> {};
``` -/
def mpl_map_at : List Spec :=
  [
  ⟨[.cls .mpl_map [], .var .K],
    [],
    [.type .type (.cls .mpl_void_ [])]⟩,
  ⟨[.cls .mpl_map [.cls .mpl_pair [.var .K, .var .T], .pack .Ps], .var .K],
    [],
    [.type .type (.var .T)]⟩,
  ⟨[.cls .mpl_map [.cls .mpl_pair [.var .L, .var .T], .pack .Ps], .var .K],
    [.cls .mpl_map_at [.cls .mpl_map [.spread .Ps], .var .K]],
    []⟩]

/-- (prelude) `mpl.hpp:316-317`
```
template <class T, class... Ts>
struct vector_at<vector<T, Ts...>, 0> { typedef T type; };
```
(prelude) `mpl.hpp:319-320`
```
template <class T, class... Ts, int N>
struct vector_at<vector<T, Ts...>, N> : vector_at<vector<Ts...>, N - 1> {};
``` -/
def mpl_vector_at : List Spec :=
  [
  ⟨[.cls .mpl_vector [.var .T, .pack .Ts], .num 0],
    [],
    [.type .type (.var .T)]⟩,
  ⟨[.cls .mpl_vector [.var .T, .pack .Ts], .var .N],
    [.cls .mpl_vector_at [.cls .mpl_vector [.spread .Ts], .op .sub (.var .N) (.num 1)]],
    []⟩]

/-- (prelude) `mpl.hpp:332-333`
```
template <class K>
struct map_has_key<map<>, K> : false_ {};
```
(prelude) `mpl.hpp:335-336`
```
template <class K, class T, class... Ps>
struct map_has_key<map<pair<K, T>, Ps...>, K> : true_ {};
```
(prelude) `mpl.hpp:338-339`
```
template <class L, class T, class... Ps, class K>
struct map_has_key<map<pair<L, T>, Ps...>, K> : map_has_key<map<Ps...>, K> {};
``` -/
def mpl_map_has_key : List Spec :=
  [
  ⟨[.cls .mpl_map [], .var .K],
    [.cls .mpl_bool_ [.num 0]],
    []⟩,
  ⟨[.cls .mpl_map [.cls .mpl_pair [.var .K, .var .T], .pack .Ps], .var .K],
    [.cls .mpl_bool_ [.num 1]],
    []⟩,
  ⟨[.cls .mpl_map [.cls .mpl_pair [.var .L, .var .T], .pack .Ps], .var .K],
    [.cls .mpl_map_has_key [.cls .mpl_map [.spread .Ps], .var .K]],
    []⟩]

/-- (prelude) `mpl.hpp:341-342`
```
template <class M, class K>
struct has_key : map_has_key<typename M::type, K> {};
``` -/
def mpl_has_key : List Spec :=
  [
  ⟨[.var .M, .var .K],
    [.cls .mpl_map_has_key [.mem (.var .M) .type, .var .K]],
    []⟩]

/-- (prelude) `mpl.hpp:345-346`
```
template <class F>
struct lambda { typedef F type; };
``` -/
def mpl_lambda : List Spec :=
  [
  ⟨[.var .F],
    [],
    [.type .type (.var .F)]⟩]

/-- (prelude) `mpl.hpp:349-350`
```
template <class A, class B>
struct is_same : mpl::false_ {};
```
(prelude) `mpl.hpp:352-353`
```
template <class T>
struct is_same<T, T> : mpl::true_ {};
``` -/
def boost_is_same : List Spec :=
  [
  ⟨[.var .T, .var .T],
    [.cls .mpl_bool_ [.num 1]],
    []⟩,
  ⟨[.var .A, .var .B],
    [.cls .mpl_bool_ [.num 0]],
    []⟩]

/-- (prelude) `mpl.hpp:358-359`
```
template <bool C, class T, class F>
struct conditional { typedef T type; };
```
(prelude) `mpl.hpp:361-362`
```
template <class T, class F>
struct conditional<false, T, F> { typedef F type; };
``` -/
def std_conditional : List Spec :=
  [
  ⟨[.num 0, .var .T, .var .F],
    [],
    [.type .type (.var .F)]⟩,
  ⟨[.var .C, .var .T, .var .F],
    [],
    [.type .type (.var .T)]⟩]

/-- (prelude) `user.hpp:4-5`
```
template <int N, class... Args>
struct value { typedef value type; };
``` -/
def user_value : List Spec :=
  [
  ⟨[.var .N, .pack .Args],
    [],
    [.type .type (.self 0)]⟩]

/-- (prelude) `user.hpp:7-8`
```
template <int N, class A, class B>
struct flip { typedef flip<N, B, A> type; };
``` -/
def user_flip : List Spec :=
  [
  ⟨[.var .N, .var .A, .var .B],
    [],
    [.type .type (.cls .user_flip [.var .N, .var .B, .var .A])]⟩]

/-- (prelude) `user.hpp:10-11`
```
template <class T>
struct delayed { typedef T type; };
``` -/
def user_delayed : List Spec :=
  [
  ⟨[.var .T],
    [],
    [.type .type (.var .T)]⟩]

/-- (prelude) `user.hpp:16-17`
```
template <int K, class... Args>
struct rule_of_grammar { typedef rule_of_grammar type; };
``` -/
def user_rule_of_grammar : List Spec :=
  [
  ⟨[.var .K, .pack .Args],
    [],
    [.type .type (.self 0)]⟩]

/-- (prelude) `user.hpp:19-20`
```
template <int... Cs>
struct long_string { typedef long_string type; };
``` -/
def user_long_string : List Spec :=
  [
  ⟨[.pack .Cs],
    [],
    [.type .type (.self 0)]⟩]

/-- (prelude) `user.hpp:22-23`
```
template <int N>
struct message { typedef message type; };
``` -/
def user_message : List Spec :=
  [
  ⟨[.var .N],
    [],
    [.type .type (.self 0)]⟩]

end Metaparse.Tmpl.Hdr

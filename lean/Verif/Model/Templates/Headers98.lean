import Verif.Model.Templates.Syntax
/-!
# The headers, translated: C++98

Translated by `/verif/translate/translate.py` from the headers of C++98, for any limits. Paths are relative to
`/repo/include/boost/metaparse/v1/`. What a macro of Boost.Preprocessor repeats is a list with a definition for each number;
of these, the ones for smaller numbers are more specialised. A template with a number in its name has the number as its
first argument.
-/

namespace Metaparse.Tmpl.Hdr98

/-- `cpp98/string.hpp:38-43`
```
template <BOOST_PP_ENUM_PARAMS(BOOST_METAPARSE_LIMIT_STRING_SIZE, int C)>
struct string
{
  typedef string type;
  typedef string_tag tag;
};
``` -/
def string (l : Limits) : List Spec :=
  [
  ⟨[.params .C l.string],
    [],
    [.type .type (.self 0),
     .type .tag (.cls .string_tag [])]⟩]

/-- `cpp98/impl/at_c.hpp:32-43`
```
template < \
  BOOST_PP_ENUM_PARAMS(BOOST_METAPARSE_LIMIT_STRING_SIZE, int C) \
> \
struct \
  at_c< \
    string< \
      BOOST_PP_ENUM_PARAMS(BOOST_METAPARSE_LIMIT_STRING_SIZE, C) \
    >, \
    n \
  > : \
  boost::mpl::char_<BOOST_PP_CAT(C, n)> \
{};
``` -/
def impl_at_c (l : Limits) : List Spec :=
  ((List.range l.string).map fun (n : Nat) => (
  ⟨[.cls .string [.params .C l.string], .num n],
    [.cls .mpl_char_ [.nth .C n]],
    []⟩ : Spec))

/-- `cpp98/impl/size.hpp:35-48`
```
template <BOOST_PP_ENUM_PARAMS(n, int C)> \
struct \
  size< \
    string< \
      BOOST_PP_ENUM_PARAMS(n, C) BOOST_PP_COMMA_IF(n) \
      BOOST_PP_ENUM( \
        BOOST_PP_SUB(BOOST_METAPARSE_LIMIT_STRING_SIZE, n), \
        BOOST_NO_CHAR BOOST_PP_TUPLE_EAT(3), \
        ~ \
      ) \
    > \
  > : \
  boost::mpl::int_<n> \
{};
``` -/
def impl_size (l : Limits) : List Spec :=
  ((List.range l.string).map fun (n : Nat) => (
  ⟨[.cls .string ([.params .C n] ++ List.replicate (l.string - n) (.num (-1)))],
    [.cls .mpl_int_ [.num n]],
    []⟩ : Spec))

/-- `cpp98/impl/pop_front.hpp:31-47`
```
template < \
  BOOST_PP_ENUM_PARAMS(BOOST_METAPARSE_LIMIT_STRING_SIZE, int C) \
>
struct
  pop_front<
    string<BOOST_PP_ENUM_PARAMS(BOOST_METAPARSE_LIMIT_STRING_SIZE, C)>
  > :
  string<
    BOOST_PP_REPEAT_FROM_TO(
      1,
      BOOST_METAPARSE_LIMIT_STRING_SIZE,
      BOOST_METAPARSE_POP_FRONT,
      ~
    ),
    BOOST_NO_CHAR
  >
{};
``` -/
def impl_pop_front (l : Limits) : List Spec :=
  [
  ⟨[.cls .string [.params .C l.string]],
    [.padded .string (((List.range' 1 (l.string - 1)).map fun (n : Nat) => .nth .C n) ++ [.num (-1)])],
    []⟩]

/-- `cpp98/impl/push_front_c.hpp:25-40`
```
template <
  BOOST_PP_ENUM_PARAMS(BOOST_METAPARSE_LIMIT_STRING_SIZE, int C),
  char Ch
>
struct push_front_c<
  string<BOOST_PP_ENUM_PARAMS(BOOST_METAPARSE_LIMIT_STRING_SIZE, C)>,
  Ch
> :
  string<
    Ch,
    BOOST_PP_ENUM_PARAMS(
      BOOST_PP_DEC(BOOST_METAPARSE_LIMIT_STRING_SIZE),
      C
    )
  >
{};
``` -/
def impl_push_front_c (l : Limits) : List Spec :=
  [
  ⟨[.cls .string [.params .C l.string], .var .Ch],
    [.padded .string ([.var .Ch] ++ ((List.range (l.string - 1)).map fun (n : Nat) => .nth .C n))],
    []⟩]

/-- `cpp98/impl/update_c.hpp:39-58`
```
template < \
  BOOST_PP_ENUM_PARAMS(BOOST_METAPARSE_LIMIT_STRING_SIZE, int C), \
  int Ch \
> \
struct update_c< \
  string<BOOST_PP_ENUM_PARAMS(BOOST_METAPARSE_LIMIT_STRING_SIZE, C)>,\
  n, \
  Ch \
> : \
  string< \
    BOOST_PP_ENUM_PARAMS(n, C) BOOST_PP_COMMA_IF(n) \
    Ch \
    BOOST_PP_REPEAT_FROM_TO( \
      BOOST_PP_INC(n), \
      BOOST_PP_DEC(BOOST_METAPARSE_LIMIT_STRING_SIZE), \
      BOOST_METAPARSE_ARGN, \
      ~ \
    ) \
  > \
{};
``` -/
def impl_update_c (l : Limits) : List Spec :=
  ((List.range l.string).map fun (n : Nat) => (
  ⟨[.cls .string [.params .C l.string], .num n, .var .Ch],
    [.padded .string (((List.range n).map fun (i : Nat) => .nth .C i) ++ [.var .Ch] ++ ((List.range' (n + 1) ((l.string - 1) - (n + 1))).map fun (i : Nat) => .nth .C i))],
    []⟩ : Spec))

/-- `cpp98/impl/push_back_c.hpp:24-27`
```
template <class S, char C>
struct push_back_c :
  update_c<typename S::type, size<typename S::type>::type::value, C>
{};
``` -/
def impl_push_back_c (_l : Limits) : List Spec :=
  [
  ⟨[.var .S, .var .C],
    [.cls .impl_update_c [.mem (.var .S) .type, .mem (.mem (.cls .impl_size [.mem (.var .S) .type]) .type) .value, .var .C]],
    []⟩]

/-- `cpp98/impl/pop_back.hpp:25-32`
```
template <class S>
struct pop_back :
  update_c<
    typename S::type,
    size<typename S::type>::type::value - 1,
    BOOST_NO_CHAR
  >
{};
``` -/
def impl_pop_back (_l : Limits) : List Spec :=
  [
  ⟨[.var .S],
    [.cls .impl_update_c [.mem (.var .S) .type, .op .sub (.mem (.mem (.cls .impl_size [.mem (.var .S) .type]) .type) .value) (.num 1), .num (-1)]],
    []⟩]

/-- `impl/apply_parser.hpp:25-56`
```
struct apply_parser
{
private:
  template <class ListToAppend>
  struct do_append
  {
    template <class Item>
    struct apply : boost::mpl::push_back<ListToAppend, Item> {};
  };

  template <class Accum, class S, class Pos, class Parser>
  struct apply_unchecked :
    transform<Parser,do_append<typename Accum::type> >::template apply<
      typename S::type,
      typename Pos::type
    >
  {};

public:
  template <class State, class Parser>
  struct apply :
    unless_error<
      State,
      apply_unchecked<
        get_result<State>,
        get_remaining<State>,
        get_position<State>,
        Parser
      >
    >
  {};
};
``` -/
def impl_apply_parser (_l : Limits) : List Spec :=
  [
  ⟨[],
    [],
    [.tmpl .do_append [
      ⟨[.var .ListToAppend],
        [],
        [.tmpl .apply [
          ⟨[.var .Item],
            [.cls .mpl_push_back [.var .ListToAppend, .var .Item]],
            []⟩]]⟩],
     .tmpl .apply_unchecked [
      ⟨[.var .Accum, .var .S, .var .Pos, .var .Parser],
        [.memT (.cls .transform [.var .Parser, .inner 1 .do_append [.mem (.var .Accum) .type]]) .apply [.mem (.var .S) .type, .mem (.var .Pos) .type]],
        []⟩],
     .tmpl .apply [
      ⟨[.var .State, .var .Parser],
        [.cls .unless_error [.var .State, .inner 1 .apply_unchecked [.cls .get_result [.var .State], .cls .get_remaining [.var .State], .cls .get_position [.var .State], .var .Parser]]],
        []⟩]]⟩]

/-- `cpp98/impl/is_none.hpp:27-32`
```
template <class Stub = int>
struct is_none0
{
  template <class C>
  struct apply : boost::mpl::true_ {};
};
```
`cpp98/impl/is_none.hpp:38-54`
```
template <BOOST_PP_ENUM_PARAMS(n, class T)> \
struct BOOST_PP_CAT(is_none, n) \
{ \
  template <class C> \
  struct apply : \
    boost::mpl::eval_if< \
      boost::mpl::bool_< \
        C::type::value \
        == BOOST_PP_CAT(T, BOOST_PP_DEC(n))::type::value \
      >, \
      boost::mpl::false_, \
      typename BOOST_PP_CAT(is_none, BOOST_PP_DEC(n))< \
        BOOST_PP_ENUM_PARAMS(BOOST_PP_DEC(n), T) \
      >::template apply<C> \
    > \
  {}; \
};
``` -/
def impl_is_none_n (l : Limits) : List Spec :=
  [
  ⟨[.num 0, .var .Stub],
    [],
    [.tmpl .apply [
      ⟨[.var .C],
        [.cls .mpl_bool_ [.num 1]],
        []⟩]]⟩] ++
  ((List.range' 1 (l.oneCharExcept - 1)).map fun (n : Nat) => (
  ⟨[.num n, .params .T n],
    [],
    [.tmpl .apply [
      ⟨[.var .C],
        [.cls .mpl_eval_if [.cls .mpl_bool_ [.op .eq (.mem (.mem (.var .C) .type) .value) (.mem (.mem (.nth .T (n - 1)) .type) .value)], .cls .mpl_bool_ [.num 0], .memT (.padded .impl_is_none_n ([.num (n - 1)] ++ ((List.range (n - 1)).map fun (i : Nat) => .nth .T i))) .apply [.var .C]]],
        []⟩]]⟩ : Spec))

/-- `cpp98/impl/later_result.hpp:22-32`
```
template <class R1, class R2>
struct later_result :
  boost::mpl::if_<
    typename boost::mpl::less<
      typename get_position<R2>::type,
      typename get_position<R1>::type
    >::type,
    R1,
    R2
  >
{};
``` -/
def impl_later_result (_l : Limits) : List Spec :=
  [
  ⟨[.var .R1, .var .R2],
    [.cls .mpl_if_ [.mem (.cls .mpl_less [.mem (.cls .get_position [.var .R2]) .type, .mem (.cls .get_position [.var .R1]) .type]) .type, .var .R1, .var .R2]],
    []⟩]

/-- `cpp98/impl/skip_seq.hpp:23-67`
```
struct skip_seq
{
private:
  template <class ParsingResult, class NewResultValue>
  struct change_result :
    accept<
      NewResultValue,
      typename get_remaining<ParsingResult>::type,
      typename get_position<ParsingResult>::type
    >
  {};

  template <class Result, class P>
  struct apply_unchecked :
    boost::mpl::eval_if<
      typename is_error<
        typename P::template apply<
          typename get_remaining<Result>::type,
          typename get_position<Result>::type
        >
      >::type,
      typename P::template apply<
        typename get_remaining<Result>::type,
        typename get_position<Result>::type
      >,
      change_result<
        typename P::template apply<
          typename get_remaining<Result>::type,
          typename get_position<Result>::type
        >,
        typename get_result<Result>::type
      >
    >
  {};

public:
  template <class Result, class P>
  struct apply :
    boost::mpl::eval_if<
      is_error<Result>,
      Result,
      apply_unchecked<Result, P>
    >
  {};
};
``` -/
def impl_skip_seq (_l : Limits) : List Spec :=
  [
  ⟨[],
    [],
    [.tmpl .change_result [
      ⟨[.var .ParsingResult, .var .NewResultValue],
        [.cls .accept [.var .NewResultValue, .mem (.cls .get_remaining [.var .ParsingResult]) .type, .mem (.cls .get_position [.var .ParsingResult]) .type]],
        []⟩],
     .tmpl .apply_unchecked [
      ⟨[.var .Result, .var .P],
        [.cls .mpl_eval_if [.mem (.cls .is_error [.memT (.var .P) .apply [.mem (.cls .get_remaining [.var .Result]) .type, .mem (.cls .get_position [.var .Result]) .type]]) .type, .memT (.var .P) .apply [.mem (.cls .get_remaining [.var .Result]) .type, .mem (.cls .get_position [.var .Result]) .type], .inner 1 .change_result [.memT (.var .P) .apply [.mem (.cls .get_remaining [.var .Result]) .type, .mem (.cls .get_position [.var .Result]) .type], .mem (.cls .get_result [.var .Result]) .type]]],
        []⟩],
     .tmpl .apply [
      ⟨[.var .Result, .var .P],
        [.cls .mpl_eval_if [.cls .is_error [.var .Result], .var .Result, .inner 1 .apply_unchecked [.var .Result, .var .P]]],
        []⟩]]⟩]

/-- `cpp98/impl/nth_of_c_impl.hpp:23-52`
```
template <int N, class Seq>
struct nth_of_c_impl
{
private:
  template <class NextResult>
  struct apply_unchecked :
    nth_of_c_impl<
      N - 1,
      typename boost::mpl::pop_front<Seq>::type
    >::template apply<
      typename get_remaining<NextResult>::type,
      typename get_position<NextResult>::type
    >
  {};
public:
  typedef nth_of_c_impl type;

  template <class S, class Pos>
  struct apply :
    boost::mpl::eval_if<
      typename is_error<
        typename boost::mpl::front<Seq>::type::template apply<S, Pos>
      >::type,
      typename boost::mpl::front<Seq>::type::template apply<S, Pos>,
      apply_unchecked<
        typename boost::mpl::front<Seq>::type::template apply<S, Pos>
      >
    >
  {};
};
```
`cpp98/impl/nth_of_c_impl.hpp:54-70`
```
template <class Seq>
struct nth_of_c_impl<0, Seq>
{
  typedef nth_of_c_impl type;

  template <class S, class Pos>
  struct apply :
    boost::mpl::fold<
      typename boost::mpl::pop_front<Seq>::type,
      typename boost::mpl::front<Seq>::type::template apply<
        S,
        Pos
      >::type,
      skip_seq
    >
  {};
};
``` -/
def impl_nth_of_c_impl (_l : Limits) : List Spec :=
  [
  ⟨[.num 0, .var .Seq],
    [],
    [.type .type (.self 0),
     .tmpl .apply [
      ⟨[.var .S, .var .Pos],
        [.cls .mpl_fold [.mem (.cls .mpl_pop_front [.var .Seq]) .type, .mem (.memT (.mem (.cls .mpl_front [.var .Seq]) .type) .apply [.var .S, .var .Pos]) .type, .cls .impl_skip_seq []]],
        []⟩]]⟩,
  ⟨[.var .N, .var .Seq],
    [],
    [.tmpl .apply_unchecked [
      ⟨[.var .NextResult],
        [.memT (.cls .impl_nth_of_c_impl [.op .sub (.var .N) (.num 1), .mem (.cls .mpl_pop_front [.var .Seq]) .type]) .apply [.mem (.cls .get_remaining [.var .NextResult]) .type, .mem (.cls .get_position [.var .NextResult]) .type]],
        []⟩],
     .type .type (.self 0),
     .tmpl .apply [
      ⟨[.var .S, .var .Pos],
        [.cls .mpl_eval_if [.mem (.cls .is_error [.memT (.mem (.cls .mpl_front [.var .Seq]) .type) .apply [.var .S, .var .Pos]]) .type, .memT (.mem (.cls .mpl_front [.var .Seq]) .type) .apply [.var .S, .var .Pos], .inner 1 .apply_unchecked [.memT (.mem (.cls .mpl_front [.var .Seq]) .type) .apply [.var .S, .var .Pos]]]],
        []⟩]]⟩]

/-- `cpp98/impl/nth_of_c.hpp:33-46`
```
template < \
  int K BOOST_PP_COMMA_IF(n) \
  BOOST_PP_ENUM_PARAMS(n, class P) \
> \
struct BOOST_PP_CAT(nth_of_c, n) : \
  boost::mpl::if_< \
    boost::mpl::bool_<(0 <= K && K < n)>, \
    nth_of_c_impl< \
      K, \
      boost::mpl::list<BOOST_PP_ENUM_PARAMS(n, P)> \
    >, \
    fail<error::index_out_of_range<0, n - 1, K> > \
  >::type \
{};
``` -/
def impl_nth_of_c_n (l : Limits) : List Spec :=
  ((List.range l.sequence).map fun (n : Nat) => (
  ⟨[.num n, .var .K, .params .P n],
    [.mem (.cls .mpl_if_ [.cls .mpl_bool_ [.op .and (.op .le (.num 0) (.var .K)) (.op .lt (.var .K) (.num n))], .cls .impl_nth_of_c_impl [.var .K, .cls .mpl_vector (((List.range n).map fun (i : Nat) => .nth .P i))], .cls .fail [.cls .error_index_out_of_range [.num 0, .op .sub (.num n) (.num 1), .var .K]]]) .type],
    []⟩ : Spec))

/-- `cpp98/impl/one_char_except_not_used.hpp:17-17`
```
struct one_char_except_not_used {};
``` -/
def impl_one_char_except_not_used (_l : Limits) : List Spec :=
  [
  ⟨[],
    [],
    []⟩]

/-- `cpp98/impl/one_of_fwd_op.hpp:22-39`
```
template <class S, class Pos>
struct one_of_fwd_op
{
  typedef one_of_fwd_op type;

  template <class State, class P>
  struct apply :
    boost::mpl::eval_if<
      typename is_error<State>::type,
      boost::mpl::eval_if<
        typename is_error<typename P::template apply<S, Pos> >::type,
        later_result<State, typename P::template apply<S, Pos> >,
        typename P::template apply<S, Pos>
      >,
      State
    >
  {};
};
``` -/
def impl_one_of_fwd_op (_l : Limits) : List Spec :=
  [
  ⟨[.var .S, .var .Pos],
    [],
    [.type .type (.self 0),
     .tmpl .apply [
      ⟨[.var .State, .var .P],
        [.cls .mpl_eval_if [.mem (.cls .is_error [.var .State]) .type, .cls .mpl_eval_if [.mem (.cls .is_error [.memT (.var .P) .apply [.var .S, .var .Pos]]) .type, .cls .impl_later_result [.var .State, .memT (.var .P) .apply [.var .S, .var .Pos]], .memT (.var .P) .apply [.var .S, .var .Pos]], .var .State]],
        []⟩]]⟩]

/-- `cpp98/impl/one_of.hpp:24-37`
```
template <class Parsers>
struct one_of
{
  typedef one_of type;

  template <class S, class Pos>
  struct apply :
    boost::mpl::fold<
      Parsers,
      fail<error::none_of_the_expected_cases_found>::apply<S, Pos>,
      one_of_fwd_op<S, Pos>
    >::type
  {};
};
``` -/
def impl_one_of (_l : Limits) : List Spec :=
  [
  ⟨[.var .Parsers],
    [],
    [.type .type (.self 0),
     .tmpl .apply [
      ⟨[.var .S, .var .Pos],
        [.mem (.cls .mpl_fold [.var .Parsers, .memT (.cls .fail [.cls .error_none_of_the_expected_cases_found []]) .apply [.var .S, .var .Pos], .cls .impl_one_of_fwd_op [.var .S, .var .Pos]]) .type],
        []⟩]]⟩]

/-- `cpp98/impl/sequence_impl.hpp:23-30`
```
template <class Ps, class S, class Pos>
struct sequence_impl :
  boost::mpl::fold<
    Ps,
    accept<boost::mpl::deque<>, S, Pos>,
    apply_parser
  >
{};
``` -/
def impl_sequence_impl (_l : Limits) : List Spec :=
  [
  ⟨[.var .Ps, .var .S, .var .Pos],
    [.cls .mpl_fold [.var .Ps, .cls .accept [.cls .mpl_vector [], .var .S, .var .Pos], .cls .impl_apply_parser []]],
    []⟩]

/-- `cpp98/impl/sequence.hpp:30-43`
```
template <BOOST_PP_ENUM_PARAMS(n, class P)> \
struct BOOST_PP_CAT(sequence, n) \
{ \
  typedef BOOST_PP_CAT(sequence, n) type; \
  \
  template <class S, class Pos> \
  struct apply : \
    sequence_impl< \
      boost::mpl::vector<BOOST_PP_ENUM_PARAMS(n, P)>, \
      S, \
      Pos \
    > \
  {}; \
};
``` -/
def impl_sequence_n (l : Limits) : List Spec :=
  ((List.range' 1 (l.sequence - 1)).map fun (n : Nat) => (
  ⟨[.num n, .params .P n],
    [],
    [.type .type (.self 0),
     .tmpl .apply [
      ⟨[.var .S, .var .Pos],
        [.cls .impl_sequence_impl [.cls .mpl_vector (((List.range n).map fun (i : Nat) => .nth .P i)), .var .S, .var .Pos]],
        []⟩]]⟩ : Spec))

/-- `cpp98/sequence.hpp:39-49`
```
template <BOOST_PP_ENUM_PARAMS(n, class P)> \
struct sequence< \
  BOOST_PP_ENUM_PARAMS(n, P) \
  BOOST_PP_COMMA_IF(n) \
  BOOST_PP_ENUM( \
    BOOST_PP_SUB(BOOST_METAPARSE_LIMIT_SEQUENCE_SIZE, n), \
    boost::mpl::na BOOST_PP_TUPLE_EAT(3), \
    ~ \
  ) \
> : impl::BOOST_PP_CAT(sequence, n)<BOOST_PP_ENUM_PARAMS(n, P)> \
{};
``` -/
def sequence (l : Limits) : List Spec :=
  ((List.range' 1 (l.sequence - 1)).map fun (n : Nat) => (
  ⟨([.params .P n] ++ List.replicate (l.sequence - n) (.cls .mpl_na [])),
    [.cls .impl_sequence_n ([.num n] ++ ((List.range n).map fun (i : Nat) => .nth .P i))],
    []⟩ : Spec))

/-- `cpp98/one_of.hpp:23-36`
```
template <
  BOOST_PP_ENUM_PARAMS_WITH_A_DEFAULT(
    BOOST_METAPARSE_LIMIT_ONE_OF_SIZE,
    class P,
    boost::mpl::na
  )
>
struct one_of :
  impl::one_of<
    boost::mpl::vector<
      BOOST_PP_ENUM_PARAMS(BOOST_METAPARSE_LIMIT_ONE_OF_SIZE, P)
    >
  >
{};
``` -/
def one_of (l : Limits) : List Spec :=
  [
  ⟨[.params .P l.oneOf],
    [.cls .impl_one_of [.cls .mpl_vector (((List.range l.oneOf).map fun (n : Nat) => .nth .P n))]],
    []⟩]

/-- `cpp98/nth_of_c.hpp:41-56`
```
template <int K BOOST_PP_COMMA_IF(n) BOOST_PP_ENUM_PARAMS(n, class P)> \
struct nth_of_c< \
  K, \
  BOOST_PP_ENUM_PARAMS(n, P) \
  BOOST_PP_COMMA_IF(n) \
  BOOST_PP_ENUM( \
    BOOST_PP_SUB(BOOST_METAPARSE_LIMIT_SEQUENCE_SIZE, n), \
    boost::mpl::na BOOST_PP_TUPLE_EAT(3), \
    ~ \
  ) \
> : \
  impl::BOOST_PP_CAT(nth_of_c, n)< \
    K BOOST_PP_COMMA_IF(n) \
    BOOST_PP_ENUM_PARAMS(n, P) \
  > \
{};
``` -/
def nth_of_c (l : Limits) : List Spec :=
  ((List.range l.sequence).map fun (n : Nat) => (
  ⟨([.var .K, .params .P n] ++ List.replicate (l.sequence - n) (.cls .mpl_na [])),
    [.cls .impl_nth_of_c_n ([.num n, .var .K] ++ ((List.range n).map fun (i : Nat) => .nth .P i))],
    []⟩ : Spec))

/-- `cpp98/nth_of.hpp:21-34`
```
template <
  class K,
  BOOST_PP_ENUM_PARAMS_WITH_A_DEFAULT(
    BOOST_METAPARSE_LIMIT_SEQUENCE_SIZE,
    class P,
    boost::mpl::na
  )
>
struct nth_of :
  nth_of_c<
    K::type::value,
    BOOST_PP_ENUM_PARAMS(BOOST_METAPARSE_LIMIT_SEQUENCE_SIZE, P)
  >
{};
``` -/
def nth_of (l : Limits) : List Spec :=
  [
  ⟨[.var .K, .params .P l.sequence],
    [.padded .nth_of_c ([.mem (.mem (.var .K) .type) .value] ++ ((List.range l.sequence).map fun (n : Nat) => .nth .P n))],
    []⟩]

/-- `cpp98/first_of.hpp:17-29`
```
template <
  BOOST_PP_ENUM_PARAMS_WITH_A_DEFAULT(
    BOOST_METAPARSE_LIMIT_SEQUENCE_SIZE,
    class P,
    boost::mpl::na
  )
>
struct first_of :
  nth_of_c<
    0,
    BOOST_PP_ENUM_PARAMS(BOOST_METAPARSE_LIMIT_SEQUENCE_SIZE, P)
  >
{};
``` -/
def first_of (l : Limits) : List Spec :=
  [
  ⟨[.params .P l.sequence],
    [.padded .nth_of_c ([.num 0] ++ ((List.range l.sequence).map fun (n : Nat) => .nth .P n))],
    []⟩]

/-- `cpp98/last_of.hpp:39-52`
```
template <BOOST_PP_ENUM_PARAMS(n, class P)> \
struct last_of< \
  BOOST_PP_ENUM_PARAMS(n, P) \
  BOOST_PP_COMMA_IF(n) \
  BOOST_PP_ENUM( \
    BOOST_PP_SUB(BOOST_METAPARSE_LIMIT_SEQUENCE_SIZE, n), \
    boost::mpl::na BOOST_PP_TUPLE_EAT(3), \
    ~ \
  ) \
> : \
  impl::BOOST_PP_CAT(nth_of_c, n)< \
    n - 1 BOOST_PP_COMMA_IF(n) BOOST_PP_ENUM_PARAMS(n, P) \
  > \
{};
``` -/
def last_of (l : Limits) : List Spec :=
  ((List.range l.sequence).map fun (n : Nat) => (
  ⟨([.params .P n] ++ List.replicate (l.sequence - n) (.cls .mpl_na [])),
    [.cls .impl_nth_of_c_n ([.num n, .op .sub (.num n) (.num 1)] ++ ((List.range n).map fun (i : Nat) => .nth .P i))],
    []⟩ : Spec))

/-- `cpp98/one_of_c.hpp:53-65`
```
template <BOOST_PP_ENUM_PARAMS(n, long C)> \
struct \
  one_of_c< \
    BOOST_PP_ENUM_PARAMS(n, C) \
    BOOST_PP_COMMA_IF(n) \
    BOOST_PP_ENUM( \
      BOOST_PP_SUB(BOOST_METAPARSE_LIMIT_ONE_OF_SIZE, n), \
      BOOST_NO_SCALAR_VALUE BOOST_PP_TUPLE_EAT(3), \
      ~ \
    ) \
  > : \
  one_of< BOOST_PP_ENUM(n, BOOST_METAPARSE_ONE_OF_C_LIT, ~) > \
{};
``` -/
def one_of_c (l : Limits) : List Spec :=
  ((List.range l.oneOf).map fun (n : Nat) => (
  ⟨([.params .C n] ++ List.replicate (l.oneOf - n) (.num 9223372036854775807)),
    [.padded .one_of (((List.range n).map fun (i : Nat) => .cls .lit_c [.nth .C i]))],
    []⟩ : Spec))

/-- `cpp98/one_char_except_c.hpp:53-81`
```
template <BOOST_PP_ENUM_PARAMS(n, int C)> \
struct one_char_except_c< \
  BOOST_PP_ENUM_PARAMS(n, C) \
  BOOST_PP_COMMA_IF( \
    BOOST_PP_MUL( \
      n, \
      BOOST_PP_SUB( \
        BOOST_PP_DEC(BOOST_METAPARSE_LIMIT_ONE_CHAR_EXCEPT_SIZE), \
        n \
      )\
    ) \
  ) \
  BOOST_PP_ENUM( \
    BOOST_PP_SUB( \
      BOOST_PP_DEC(BOOST_METAPARSE_LIMIT_ONE_CHAR_EXCEPT_SIZE), \
      n \
    ), \
    1024 BOOST_PP_TUPLE_EAT(3), \
    ~ \
  ) \
> : \
  accept_when< \
    one_char, \
    impl::BOOST_PP_CAT(is_none, n)< \
      BOOST_PP_ENUM(n, BOOST_METAPARSE_WRAP, ~) \
    >, \
    error::unexpected_character \
  > \
{};
``` -/
def one_char_except_c (l : Limits) : List Spec :=
  ((List.range l.oneCharExcept).map fun (n : Nat) => (
  ⟨([.params .C n] ++ List.replicate ((l.oneCharExcept - 1) - n) (.num 1024) ++ List.replicate (l.oneCharExcept - (n + ((l.oneCharExcept - 1) - n))) (.num 1024)),
    [.cls .accept_when [.cls .one_char [], .padded .impl_is_none_n ([.num n] ++ ((List.range n).map fun (i : Nat) => .cls .mpl_char_ [.nth .C i])), .cls .error_unexpected_character []]],
    []⟩ : Spec))

/-- `cpp98/one_char_except.hpp:44-70`
```
template <BOOST_PP_ENUM_PARAMS(n, class T)> \
struct one_char_except< \
  BOOST_PP_ENUM_PARAMS(n, T) \
  BOOST_PP_COMMA_IF( \
    BOOST_PP_MUL( \
      n, \
      BOOST_PP_SUB( \
        BOOST_PP_DEC(BOOST_METAPARSE_LIMIT_ONE_CHAR_EXCEPT_SIZE), \
        n \
      ) \
    ) \
  ) \
  BOOST_PP_ENUM( \
    BOOST_PP_SUB( \
      BOOST_PP_DEC(BOOST_METAPARSE_LIMIT_ONE_CHAR_EXCEPT_SIZE), \
      n \
    ), \
    impl::one_char_except_not_used BOOST_PP_TUPLE_EAT(3), \
    ~ \
  ) \
> :\
  accept_when< \
    one_char, \
    impl::BOOST_PP_CAT(is_none, n)<BOOST_PP_ENUM_PARAMS(n, T)>, \
    error::unexpected_character \
  > \
{};
``` -/
def one_char_except (l : Limits) : List Spec :=
  ((List.range l.oneCharExcept).map fun (n : Nat) => (
  ⟨([.params .T n] ++ List.replicate ((l.oneCharExcept - 1) - n) (.cls .impl_one_char_except_not_used []) ++ List.replicate (l.oneCharExcept - (n + ((l.oneCharExcept - 1) - n))) (.cls .impl_one_char_except_not_used [])),
    [.cls .accept_when [.cls .one_char [], .padded .impl_is_none_n ([.num n] ++ ((List.range n).map fun (i : Nat) => .nth .T i)), .cls .error_unexpected_character []]],
    []⟩ : Spec))

/-- `cpp98/repeated_one_of.hpp:24-39`
```
template <
  BOOST_PP_ENUM_PARAMS_WITH_A_DEFAULT(
    BOOST_METAPARSE_LIMIT_ONE_OF_SIZE,
    class P,
    boost::mpl::na
  )
>
struct repeated_one_of :
  repeated<
    impl::one_of<
      boost::mpl::vector<
        BOOST_PP_ENUM_PARAMS(BOOST_METAPARSE_LIMIT_ONE_OF_SIZE, P)
      >
    >
  >
{};
``` -/
def repeated_one_of (l : Limits) : List Spec :=
  [
  ⟨[.params .P l.oneOf],
    [.cls .repeated [.cls .impl_one_of [.cls .mpl_vector (((List.range l.oneOf).map fun (n : Nat) => .nth .P n))]]],
    []⟩]

/-- `cpp98/repeated_one_of1.hpp:24-39`
```
template <
  BOOST_PP_ENUM_PARAMS_WITH_A_DEFAULT(
    BOOST_METAPARSE_LIMIT_ONE_OF_SIZE,
    class P,
    boost::mpl::na
  )
>
struct repeated_one_of1 :
  repeated1<
    impl::one_of<
      boost::mpl::vector<
        BOOST_PP_ENUM_PARAMS(BOOST_METAPARSE_LIMIT_ONE_OF_SIZE, P)
      >
    >
  >
{};
``` -/
def repeated_one_of1 (l : Limits) : List Spec :=
  [
  ⟨[.params .P l.oneOf],
    [.cls .repeated1 [.cls .impl_one_of [.cls .mpl_vector (((List.range l.oneOf).map fun (n : Nat) => .nth .P n))]]],
    []⟩]

/-- `sequence_apply.hpp:40-52`
```
template < \
  template <BOOST_PP_ENUM(n, class BOOST_PP_TUPLE_EAT(3), ~)> class T \
> \
struct BOOST_PP_CAT(sequence_apply_transform, n) \
{ \
  typedef BOOST_PP_CAT(sequence_apply_transform, n) type; \
  \
  template <class V> \
  struct apply \
  { \
    typedef T<BOOST_PP_ENUM(n, BOOST_METAPARSE_SEQUENCE_APPLY_ARG, V)> type; \
  }; \
}; \
``` -/
def impl_sequence_apply_transform_n (l : Limits) : List Spec :=
  ((List.range' 1 (l.sequence - 1)).map fun (n : Nat) => (
  ⟨[.num n, .var .T],
    [],
    [.type .type (.self 0),
     .tmpl .apply [
      ⟨[.var .V],
        [],
        [.type .type (.cls .user_value ([.var .T] ++ ((List.range n).map fun (i : Nat) => .mem (.cls .mpl_at_c [.var .V, .num i]) .type)))]⟩]]⟩ : Spec))

/-- `sequence_apply.hpp:55-64`
```
template < \
  template <BOOST_PP_ENUM(n, class BOOST_PP_TUPLE_EAT(3), ~)> class T, \
  BOOST_PP_ENUM_PARAMS(n, class P) \
> \
struct BOOST_PP_CAT(sequence_apply, n) : \
  transform< \
    sequence<BOOST_PP_ENUM_PARAMS(n, P)>, \
    BOOST_PP_CAT(impl::sequence_apply_transform, n)<T> \
  > \
{};
``` -/
def sequence_apply_n (l : Limits) : List Spec :=
  ((List.range' 1 (l.sequence - 1)).map fun (n : Nat) => (
  ⟨[.num n, .var .T, .params .P n],
    [.cls .transform [.padded .sequence (((List.range n).map fun (i : Nat) => .nth .P i)), .cls .impl_sequence_apply_transform_n [.num n, .var .T]]],
    []⟩ : Spec))

end Metaparse.Tmpl.Hdr98

import Verif.Model.Templates.Syntax
/-!
# The headers, translated: what parsers are made of

Translated by `/verif/translate/translate.py` from the headers of C++11. Paths are relative to
`/repo/include/boost/metaparse/v1/`. Member functions and data that is not a constant are left out.
-/

namespace Metaparse.Tmpl.Hdr

/-- `accept_tag.hpp:20-20`
```
struct accept_tag { typedef accept_tag type; };
``` -/
def accept_tag : List Spec :=
  [
  ⟨[],
    [],
    [.type .type (.self 0)]⟩]

/-- `accept_tag.hpp:22-27`
```
template <>
struct get_position_impl<accept_tag>
{
  template <class A>
  struct apply : A::source_position {};
};
```
`fail_tag.hpp:30-35`
```
template <>
struct get_position_impl<fail_tag>
{
  template <class A>
  struct apply : A::source_position {};
};
``` -/
def get_position_impl : List Spec :=
  [
  ⟨[.cls .accept_tag []],
    [],
    [.tmpl .apply [
      ⟨[.var .A],
        [.mem (.var .A) .source_position],
        []⟩]]⟩,
  ⟨[.cls .fail_tag []],
    [],
    [.tmpl .apply [
      ⟨[.var .A],
        [.mem (.var .A) .source_position],
        []⟩]]⟩]

/-- `accept_tag.hpp:29-34`
```
template <>
struct get_remaining_impl<accept_tag>
{
  template <class A>
  struct apply : A::remaining {};
};
``` -/
def get_remaining_impl : List Spec :=
  [
  ⟨[.cls .accept_tag []],
    [],
    [.tmpl .apply [
      ⟨[.var .A],
        [.mem (.var .A) .remaining],
        []⟩]]⟩]

/-- `accept_tag.hpp:36-41`
```
template <>
struct get_result_impl<accept_tag>
{
  template <class A>
  struct apply { typedef typename A::result type; };
};
``` -/
def get_result_impl : List Spec :=
  [
  ⟨[.cls .accept_tag []],
    [],
    [.tmpl .apply [
      ⟨[.var .A],
        [],
        [.type .type (.mem (.var .A) .result)]⟩]]⟩]

/-- `fail_tag.hpp:21-21`
```
struct fail_tag { typedef fail_tag type; };
``` -/
def fail_tag : List Spec :=
  [
  ⟨[],
    [],
    [.type .type (.self 0)]⟩]

/-- `fail_tag.hpp:23-28`
```
template <>
struct get_message_impl<fail_tag>
{
  template <class A>
  struct apply { typedef typename A::message type; };
};
``` -/
def get_message_impl : List Spec :=
  [
  ⟨[.cls .fail_tag []],
    [],
    [.tmpl .apply [
      ⟨[.var .A],
        [],
        [.type .type (.mem (.var .A) .message)]⟩]]⟩]

/-- `accept.hpp:18-30`
```
template <class Result, class Remaining, class Pos>
struct accept
{
  typedef accept_tag tag;

  typedef
    accept<Result, typename Remaining::type, typename Pos::type>
    type;

  typedef Result result;
  typedef Remaining remaining;
  typedef Pos source_position;
};
``` -/
def accept : List Spec :=
  [
  ⟨[.var .Result, .var .Remaining, .var .Pos],
    [],
    [.type .tag (.cls .accept_tag []),
     .type .type (.cls .accept [.var .Result, .mem (.var .Remaining) .type, .mem (.var .Pos) .type]),
     .type .result (.var .Result),
     .type .remaining (.var .Remaining),
     .type .source_position (.var .Pos)]⟩]

/-- `reject.hpp:18-27`
```
template <class Msg, class Pos>
struct reject
{
  typedef fail_tag tag;

  typedef reject<Msg, typename Pos::type> type;

  typedef Pos source_position;
  typedef Msg message;
};
``` -/
def reject : List Spec :=
  [
  ⟨[.var .Msg, .var .Pos],
    [],
    [.type .tag (.cls .fail_tag []),
     .type .type (.cls .reject [.var .Msg, .mem (.var .Pos) .type]),
     .type .source_position (.var .Pos),
     .type .message (.var .Msg)]⟩]

/-- `get_result.hpp:20-23`
```
template <class T>
struct get_result :
  get_result_impl<typename T::type::tag>::template apply<typename T::type>
{};
``` -/
def get_result : List Spec :=
  [
  ⟨[.var .T],
    [.memT (.cls .get_result_impl [.mem (.mem (.var .T) .type) .tag]) .apply [.mem (.var .T) .type]],
    []⟩]

/-- `get_remaining.hpp:20-22`
```
template <class T>
struct get_remaining : get_remaining_impl<typename T::type::tag>::template apply<typename T::type>
{};
``` -/
def get_remaining : List Spec :=
  [
  ⟨[.var .T],
    [.memT (.cls .get_remaining_impl [.mem (.mem (.var .T) .type) .tag]) .apply [.mem (.var .T) .type]],
    []⟩]

/-- `get_position.hpp:20-22`
```
template <class T>
struct get_position : get_position_impl<typename T::type::tag>::template apply<typename T::type>
{};
``` -/
def get_position : List Spec :=
  [
  ⟨[.var .T],
    [.memT (.cls .get_position_impl [.mem (.mem (.var .T) .type) .tag]) .apply [.mem (.var .T) .type]],
    []⟩]

/-- `get_message.hpp:20-22`
```
template <class T>
struct get_message : get_message_impl<typename T::type::tag>::template apply<typename T::type>
{};
``` -/
def get_message : List Spec :=
  [
  ⟨[.var .T],
    [.memT (.cls .get_message_impl [.mem (.mem (.var .T) .type) .tag]) .apply [.mem (.var .T) .type]],
    []⟩]

/-- `source_position_tag.hpp:34-39`
```
template <>
struct get_line_impl<source_position_tag>
{
  template <class P>
  struct apply : P::line {};
};
``` -/
def get_line_impl : List Spec :=
  [
  ⟨[.cls .source_position_tag []],
    [],
    [.tmpl .apply [
      ⟨[.var .P],
        [.mem (.var .P) .line],
        []⟩]]⟩]

/-- `get_line.hpp:20-22`
```
template <class T>
struct get_line : get_line_impl<typename T::type::tag>::template apply<typename T::type>
{};
``` -/
def get_line : List Spec :=
  [
  ⟨[.var .T],
    [.memT (.cls .get_line_impl [.mem (.mem (.var .T) .type) .tag]) .apply [.mem (.var .T) .type]],
    []⟩]

/-- `source_position_tag.hpp:27-32`
```
template <>
struct get_col_impl<source_position_tag>
{
  template <class P>
  struct apply : P::col {};
};
``` -/
def get_col_impl : List Spec :=
  [
  ⟨[.cls .source_position_tag []],
    [],
    [.tmpl .apply [
      ⟨[.var .P],
        [.mem (.var .P) .col],
        []⟩]]⟩]

/-- `get_col.hpp:20-22`
```
template <class T>
struct get_col : get_col_impl<typename T::type::tag>::template apply<typename T::type>
{};
``` -/
def get_col : List Spec :=
  [
  ⟨[.var .T],
    [.memT (.cls .get_col_impl [.mem (.mem (.var .T) .type) .tag]) .apply [.mem (.var .T) .type]],
    []⟩]

/-- `source_position_tag.hpp:42-47`
```
template <>
struct get_prev_char_impl<source_position_tag>
{
  template <class P>
  struct apply : P::prev_char {};
};
``` -/
def get_prev_char_impl : List Spec :=
  [
  ⟨[.cls .source_position_tag []],
    [],
    [.tmpl .apply [
      ⟨[.var .P],
        [.mem (.var .P) .prev_char],
        []⟩]]⟩]

/-- `get_prev_char.hpp:20-22`
```
template <class T>
struct get_prev_char : get_prev_char_impl<typename T::type::tag>::template apply<typename T::type>
{};
``` -/
def get_prev_char : List Spec :=
  [
  ⟨[.var .T],
    [.memT (.cls .get_prev_char_impl [.mem (.mem (.var .T) .type) .tag]) .apply [.mem (.var .T) .type]],
    []⟩]

/-- `is_error.hpp:22-28`
```
template <class T = boost::mpl::na>
struct is_error :
  boost::is_same<
    fail_tag,
    typename boost::mpl::tag<typename T::type>::type
  >
{};
```
`is_error.hpp:30-37`
```
template <>
struct is_error<boost::mpl::na>
{
  typedef is_error type;

  template <class T = boost::mpl::na>
  struct apply : is_error<T> {};
};
``` -/
def is_error : List Spec :=
  [
  ⟨[.cls .mpl_na []],
    [],
    [.type .type (.self 0),
     .tmpl .apply [
      ⟨[.var .T],
        [.cls .is_error [.var .T]],
        []⟩]]⟩,
  ⟨[.var .T],
    [.cls .boost_is_same [.cls .fail_tag [], .mem (.cls .mpl_tag [.mem (.var .T) .type]) .type]],
    []⟩]

/-- `unless_error.hpp:20-23`
```
template <class T, class NotErrorCase>
struct unless_error :
  boost::mpl::eval_if<typename is_error<T>::type, T, NotErrorCase>
{};
``` -/
def unless_error : List Spec :=
  [
  ⟨[.var .T, .var .NotErrorCase],
    [.cls .mpl_eval_if [.mem (.cls .is_error [.var .T]) .type, .var .T, .var .NotErrorCase]],
    []⟩]

/-- `source_position_tag.hpp:25-25`
```
struct source_position_tag { typedef source_position_tag type; };
``` -/
def source_position_tag : List Spec :=
  [
  ⟨[],
    [],
    [.type .type (.self 0)]⟩]

/-- `source_position_tag.hpp:50-61`
```
template <>
struct next_char_impl<source_position_tag>
{
  template <class P, class Ch>
  struct apply :
    source_position<
      typename get_line<P>::type,
      boost::mpl::int_<get_col<P>::type::value + 1>,
      Ch
    >
  {};
};
``` -/
def next_char_impl : List Spec :=
  [
  ⟨[.cls .source_position_tag []],
    [],
    [.tmpl .apply [
      ⟨[.var .P, .var .Ch],
        [.cls .source_position [.mem (.cls .get_line [.var .P]) .type, .cls .mpl_int_ [.op .add (.mem (.mem (.cls .get_col [.var .P]) .type) .value) (.num 1)], .var .Ch]],
        []⟩]]⟩]

/-- `source_position_tag.hpp:63-74`
```
template <>
struct next_line_impl<source_position_tag>
{
  template <class P, class Ch>
  struct apply :
    source_position<
      boost::mpl::int_<get_line<P>::type::value + 1>,
      boost::mpl::int_<1>,
      Ch
    >
  {};
};
``` -/
def next_line_impl : List Spec :=
  [
  ⟨[.cls .source_position_tag []],
    [],
    [.tmpl .apply [
      ⟨[.var .P, .var .Ch],
        [.cls .source_position [.cls .mpl_int_ [.op .add (.mem (.mem (.cls .get_line [.var .P]) .type) .value) (.num 1)], .cls .mpl_int_ [.num 1], .var .Ch]],
        []⟩]]⟩]

/-- `source_position.hpp:23-32`
```
template <class Line, class Col, class PrevChar>
struct source_position
{
  typedef source_position_tag tag;
  typedef source_position type;

  typedef Line line;
  typedef Col col;
  typedef PrevChar prev_char;
};
``` -/
def source_position : List Spec :=
  [
  ⟨[.var .Line, .var .Col, .var .PrevChar],
    [],
    [.type .tag (.cls .source_position_tag []),
     .type .type (.self 0),
     .type .line (.var .Line),
     .type .col (.var .Col),
     .type .prev_char (.var .PrevChar)]⟩]

/-- `source_position.hpp:44-60`
```
template <>
struct equal_to_impl<
  boost::metaparse::v1::source_position_tag,
  boost::metaparse::v1::source_position_tag
>
{
  typedef equal_to_impl type;

  template <class A, class B>
  struct apply :
    bool_<
      A::type::line::value == B::type::line::value
      && A::type::col::value == B::type::col::value
      && A::type::prev_char::value == B::type::prev_char::value
    >
  {};
};
```
`impl/string_iterator.hpp:130-140`
```
template <>
struct equal_to_impl<
  boost::metaparse::v1::impl::string_iterator_tag,
  boost::metaparse::v1::impl::string_iterator_tag
>
{
  typedef equal_to_impl type;

  template <class A, class B>
  struct apply : is_same<typename A::type, typename B::type> {};
};
```
`impl/string_iterator.hpp:142-149`
```
template <class T>
struct equal_to_impl<boost::metaparse::v1::impl::string_iterator_tag, T>
{
  typedef equal_to_impl type;

  template <class, class>
  struct apply : false_ {};
};
```
`impl/string_iterator.hpp:151-154`
```
template <class T>
struct equal_to_impl<T, boost::metaparse::v1::impl::string_iterator_tag> :
  equal_to_impl<boost::metaparse::v1::impl::string_iterator_tag, T>
{};
```
`cpp11/string.hpp:162-172`
```
template <>
struct equal_to_impl<
  boost::metaparse::v1::string_tag,
  boost::metaparse::v1::string_tag
>
{
  typedef equal_to_impl type;

  template <class A, class B>
  struct apply : std::is_same<typename A::type, typename B::type> {};
};
```
`cpp11/string.hpp:174-181`
```
template <class T>
struct equal_to_impl<boost::metaparse::v1::string_tag, T>
{
  typedef equal_to_impl type;

  template <class, class>
  struct apply : false_ {};
};
```
`cpp11/string.hpp:183-186`
```
template <class T>
struct equal_to_impl<T, boost::metaparse::v1::string_tag> :
  equal_to_impl<boost::metaparse::v1::string_tag, T>
{};
``` -/
def mpl_equal_to_impl : List Spec :=
  [
  ⟨[.cls .source_position_tag [], .cls .source_position_tag []],
    [],
    [.type .type (.self 0),
     .tmpl .apply [
      ⟨[.var .A, .var .B],
        [.cls .mpl_bool_ [.op .and (.op .and (.op .eq (.mem (.mem (.mem (.var .A) .type) .line) .value) (.mem (.mem (.mem (.var .B) .type) .line) .value)) (.op .eq (.mem (.mem (.mem (.var .A) .type) .col) .value) (.mem (.mem (.mem (.var .B) .type) .col) .value))) (.op .eq (.mem (.mem (.mem (.var .A) .type) .prev_char) .value) (.mem (.mem (.mem (.var .B) .type) .prev_char) .value))]],
        []⟩]]⟩,
  ⟨[.cls .impl_string_iterator_tag [], .cls .impl_string_iterator_tag []],
    [],
    [.type .type (.self 0),
     .tmpl .apply [
      ⟨[.var .A, .var .B],
        [.cls .boost_is_same [.mem (.var .A) .type, .mem (.var .B) .type]],
        []⟩]]⟩,
  ⟨[.cls .impl_string_iterator_tag [], .var .T],
    [],
    [.type .type (.self 0),
     .tmpl .apply [
      ⟨[.var .x0, .var .x1],
        [.cls .mpl_bool_ [.num 0]],
        []⟩]]⟩,
  ⟨[.var .T, .cls .impl_string_iterator_tag []],
    [.cls .mpl_equal_to_impl [.cls .impl_string_iterator_tag [], .var .T]],
    []⟩,
  ⟨[.cls .string_tag [], .cls .string_tag []],
    [],
    [.type .type (.self 0),
     .tmpl .apply [
      ⟨[.var .A, .var .B],
        [.cls .boost_is_same [.mem (.var .A) .type, .mem (.var .B) .type]],
        []⟩]]⟩,
  ⟨[.cls .string_tag [], .var .T],
    [],
    [.type .type (.self 0),
     .tmpl .apply [
      ⟨[.var .x0, .var .x1],
        [.cls .mpl_bool_ [.num 0]],
        []⟩]]⟩,
  ⟨[.var .T, .cls .string_tag []],
    [.cls .mpl_equal_to_impl [.cls .string_tag [], .var .T]],
    []⟩]

/-- `source_position.hpp:65-75`
```
template <>
struct not_equal_to_impl<
  boost::metaparse::v1::source_position_tag,
  boost::metaparse::v1::source_position_tag
>
{
  typedef not_equal_to_impl type;

  template <class A, class B>
  struct apply : bool_<!equal_to<A, B>::type::value> {};
};
``` -/
def mpl_not_equal_to_impl : List Spec :=
  [
  ⟨[.cls .source_position_tag [], .cls .source_position_tag []],
    [],
    [.type .type (.self 0),
     .tmpl .apply [
      ⟨[.var .A, .var .B],
        [.cls .mpl_bool_ [.not (.mem (.mem (.cls .mpl_equal_to [.var .A, .var .B]) .type) .value)]],
        []⟩]]⟩]

/-- `source_position.hpp:80-101`
```
template <>
struct less_impl<
  boost::metaparse::v1::source_position_tag,
  boost::metaparse::v1::source_position_tag
>
{
  typedef less_impl type;

  template <class A, class B>
  struct apply :
    bool_<(
      (A::type::line::value) < (B::type::line::value) || (
        (A::type::line::value) == (B::type::line::value) && (
          (A::type::col::value) < (B::type::col::value) || (
            (A::type::col::value) == (B::type::col::value) &&
            (A::type::prev_char::value) < (B::type::prev_char::value)
          )
        )
      )
    )>
  {};
};
``` -/
def mpl_less_impl : List Spec :=
  [
  ⟨[.cls .source_position_tag [], .cls .source_position_tag []],
    [],
    [.type .type (.self 0),
     .tmpl .apply [
      ⟨[.var .A, .var .B],
        [.cls .mpl_bool_ [.op .or (.op .lt (.mem (.mem (.mem (.var .A) .type) .line) .value) (.mem (.mem (.mem (.var .B) .type) .line) .value)) (.op .and (.op .eq (.mem (.mem (.mem (.var .A) .type) .line) .value) (.mem (.mem (.mem (.var .B) .type) .line) .value)) (.op .or (.op .lt (.mem (.mem (.mem (.var .A) .type) .col) .value) (.mem (.mem (.mem (.var .B) .type) .col) .value)) (.op .and (.op .eq (.mem (.mem (.mem (.var .A) .type) .col) .value) (.mem (.mem (.mem (.var .B) .type) .col) .value)) (.op .lt (.mem (.mem (.mem (.var .A) .type) .prev_char) .value) (.mem (.mem (.mem (.var .B) .type) .prev_char) .value)))))]],
        []⟩]]⟩]

/-- `source_position.hpp:106-118`
```
template <>
struct greater_impl<
  boost::metaparse::v1::source_position_tag,
  boost::metaparse::v1::source_position_tag
>
{
  typedef greater_impl type;

  template <class A, class B>
  struct apply :
    bool_<!(less<A, B>::type::value || equal_to<A, B>::type::value)>
  {};
};
``` -/
def mpl_greater_impl : List Spec :=
  [
  ⟨[.cls .source_position_tag [], .cls .source_position_tag []],
    [],
    [.type .type (.self 0),
     .tmpl .apply [
      ⟨[.var .A, .var .B],
        [.cls .mpl_bool_ [.not (.op .or (.mem (.mem (.cls .mpl_less [.var .A, .var .B]) .type) .value) (.mem (.mem (.cls .mpl_equal_to [.var .A, .var .B]) .type) .value))]],
        []⟩]]⟩]

/-- `source_position.hpp:123-133`
```
template <>
struct greater_equal_impl<
  boost::metaparse::v1::source_position_tag,
  boost::metaparse::v1::source_position_tag
>
{
  typedef greater_equal_impl type;

  template <class A, class B>
  struct apply : bool_<!less<A, B>::type::value> {};
};
``` -/
def mpl_greater_equal_impl : List Spec :=
  [
  ⟨[.cls .source_position_tag [], .cls .source_position_tag []],
    [],
    [.type .type (.self 0),
     .tmpl .apply [
      ⟨[.var .A, .var .B],
        [.cls .mpl_bool_ [.not (.mem (.mem (.cls .mpl_less [.var .A, .var .B]) .type) .value)]],
        []⟩]]⟩]

/-- `next_char.hpp:19-24`
```
template <class P, class Ch>
struct next_char :
  next_char_impl<
    typename boost::mpl::tag<typename P::type>::type
  >::template apply<typename P::type, typename Ch::type>
{};
``` -/
def next_char : List Spec :=
  [
  ⟨[.var .P, .var .Ch],
    [.memT (.cls .next_char_impl [.mem (.cls .mpl_tag [.mem (.var .P) .type]) .type]) .apply [.mem (.var .P) .type, .mem (.var .Ch) .type]],
    []⟩]

/-- `next_line.hpp:19-24`
```
template <class P, class Ch>
struct next_line :
  next_line_impl<
    typename boost::mpl::tag<typename P::type>::type
  >::template apply<typename P::type, typename Ch::type>
{};
``` -/
def next_line : List Spec :=
  [
  ⟨[.var .P, .var .Ch],
    [.memT (.cls .next_line_impl [.mem (.cls .mpl_tag [.mem (.var .P) .type]) .type]) .apply [.mem (.var .P) .type, .mem (.var .Ch) .type]],
    []⟩]

/-- `string_tag.hpp:15-18`
```
struct string_tag
{
  typedef string_tag type;
};
``` -/
def string_tag : List Spec :=
  [
  ⟨[],
    [],
    [.type .type (.self 0)]⟩]

/-- `impl/string_iterator_tag.hpp:17-20`
```
struct string_iterator_tag
{
  typedef string_iterator_tag type;
};
``` -/
def impl_string_iterator_tag : List Spec :=
  [
  ⟨[],
    [],
    [.type .type (.self 0)]⟩]

/-- `impl/string_iterator.hpp:28-34`
```
template <class S, int N>
struct string_iterator
{
  typedef string_iterator type;
  typedef string_iterator_tag tag;
  typedef boost::mpl::random_access_iterator_tag category;
};
``` -/
def impl_string_iterator : List Spec :=
  [
  ⟨[.var .S, .var .N],
    [],
    [.type .type (.self 0),
     .type .tag (.cls .impl_string_iterator_tag []),
     .type .category (.cls .mpl_random_access_iterator_tag [])]⟩]

/-- `impl/string_iterator.hpp:41-44`
```
template <class S, int N, int P>
struct advance_c<string_iterator<S, N>, P> :
  string_iterator<S, N + P>
{};
``` -/
def impl_advance_c : List Spec :=
  [
  ⟨[.cls .impl_string_iterator [.var .S, .var .N], .var .P],
    [.cls .impl_string_iterator [.var .S, .op .add (.var .N) (.var .P)]],
    []⟩]

/-- `impl/string_iterator.hpp:51-54`
```
template <class S, int A, int B>
struct distance<string_iterator<S, A>, string_iterator<S, B> > :
  boost::mpl::int_<B - A>
{};
``` -/
def impl_distance : List Spec :=
  [
  ⟨[.cls .impl_string_iterator [.var .S, .var .A], .cls .impl_string_iterator [.var .S, .var .B]],
    [.cls .mpl_int_ [.op .sub (.var .B) (.var .A)]],
    []⟩]

/-- `impl/string_iterator.hpp:68-79`
```
template <>
struct advance_impl<boost::metaparse::v1::impl::string_iterator_tag>
{
  typedef advance_impl type;

  template <class S, class N>
  struct apply :
    boost::metaparse::v1::impl::advance_c<
      typename S::type, N::type::value
    >
  {};
};
``` -/
def mpl_advance_impl : List Spec :=
  [
  ⟨[.cls .impl_string_iterator_tag []],
    [],
    [.type .type (.self 0),
     .tmpl .apply [
      ⟨[.var .S, .var .N],
        [.cls .impl_advance_c [.mem (.var .S) .type, .mem (.mem (.var .N) .type) .value]],
        []⟩]]⟩]

/-- `impl/string_iterator.hpp:85-97`
```
template <>
struct distance_impl<boost::metaparse::v1::impl::string_iterator_tag>
{
  typedef distance_impl type;

  template <class A, class B>
  struct apply :
    boost::metaparse::v1::impl::distance<
      typename A::type,
      typename B::type
    >
  {};
};
``` -/
def mpl_distance_impl : List Spec :=
  [
  ⟨[.cls .impl_string_iterator_tag []],
    [],
    [.type .type (.self 0),
     .tmpl .apply [
      ⟨[.var .A, .var .B],
        [.cls .impl_distance [.mem (.var .A) .type, .mem (.var .B) .type]],
        []⟩]]⟩]

/-- `impl/string_iterator.hpp:103-106`
```
template <class S, int N>
struct next<boost::metaparse::v1::impl::string_iterator<S, N> > :
  boost::metaparse::v1::impl::string_iterator<S, N + 1>
{};
``` -/
def mpl_next : List Spec :=
  [
  ⟨[.cls .impl_string_iterator [.var .S, .var .N]],
    [.cls .impl_string_iterator [.var .S, .op .add (.var .N) (.num 1)]],
    []⟩]

/-- `impl/string_iterator.hpp:112-115`
```
template <class S, int N>
struct prior<boost::metaparse::v1::impl::string_iterator<S, N> > :
  boost::metaparse::v1::impl::string_iterator<S, N - 1>
{};
``` -/
def mpl_prior : List Spec :=
  [
  ⟨[.cls .impl_string_iterator [.var .S, .var .N]],
    [.cls .impl_string_iterator [.var .S, .op .sub (.var .N) (.num 1)]],
    []⟩]

/-- `impl/string_iterator.hpp:121-124`
```
template <class S, int N>
struct deref<boost::metaparse::v1::impl::string_iterator<S, N> > :
  boost::metaparse::v1::impl::at_c<S, N>
{};
``` -/
def mpl_deref : List Spec :=
  [
  ⟨[.cls .impl_string_iterator [.var .S, .var .N]],
    [.cls .impl_at_c [.var .S, .var .N]],
    []⟩]

/-- `cpp11/string.hpp:32-37`
```
template <char... Cs>
struct string
{
  typedef string type;
  typedef string_tag tag;
};
``` -/
def string : List Spec :=
  [
  ⟨[.pack .Cs],
    [],
    [.type .type (.self 0),
     .type .tag (.cls .string_tag [])]⟩]

/-- `cpp11/string.hpp:72-79`
```
template <>
struct pop_back_impl<boost::metaparse::v1::string_tag>
{
  typedef pop_back_impl type;

  template <class S>
  struct apply : boost::metaparse::v1::impl::pop_back<S> {};
};
``` -/
def mpl_pop_back_impl : List Spec :=
  [
  ⟨[.cls .string_tag []],
    [],
    [.type .type (.self 0),
     .tmpl .apply [
      ⟨[.var .S],
        [.cls .impl_pop_back [.var .S]],
        []⟩]]⟩]

/-- `cpp11/string.hpp:116-123`
```
template <>
struct clear_impl<boost::metaparse::v1::string_tag>
{
  typedef clear_impl type;

  template <class S>
  struct apply : boost::metaparse::v1::string<> {};
};
``` -/
def mpl_clear_impl : List Spec :=
  [
  ⟨[.cls .string_tag []],
    [],
    [.type .type (.self 0),
     .tmpl .apply [
      ⟨[.var .S],
        [.padded .string []],
        []⟩]]⟩]

/-- `cpp11/string.hpp:129-138`
```
template <>
struct begin_impl<boost::metaparse::v1::string_tag>
{
  typedef begin_impl type;

  template <class S>
  struct apply :
    boost::metaparse::v1::impl::string_iterator<typename S::type, 0>
  {};
};
``` -/
def mpl_begin_impl : List Spec :=
  [
  ⟨[.cls .string_tag []],
    [],
    [.type .type (.self 0),
     .tmpl .apply [
      ⟨[.var .S],
        [.cls .impl_string_iterator [.mem (.var .S) .type, .num 0]],
        []⟩]]⟩]

/-- `cpp11/string.hpp:144-156`
```
template <>
struct end_impl<boost::metaparse::v1::string_tag>
{
  typedef end_impl type;

  template <class S>
  struct apply :
    boost::metaparse::v1::impl::string_iterator<
      typename S::type,
      boost::metaparse::v1::impl::size<typename S::type>::type::value
    >
  {};
};
``` -/
def mpl_end_impl : List Spec :=
  [
  ⟨[.cls .string_tag []],
    [],
    [.type .type (.self 0),
     .tmpl .apply [
      ⟨[.var .S],
        [.cls .impl_string_iterator [.mem (.var .S) .type, .mem (.mem (.cls .impl_size [.mem (.var .S) .type]) .type) .value]],
        []⟩]]⟩]

/-- `cpp11/string.hpp:192-197`
```
template <char... Cs>
struct c_str<boost::metaparse::v1::string<Cs...>>
{
  typedef c_str type;
  static constexpr char value[sizeof...(Cs) + 1] = {Cs..., 0};
};
```
`cpp11/string.hpp:199-202`
```
template <>
struct c_str<boost::metaparse::v1::string<>> :
  boost::metaparse::v1::impl::empty_string<>
{};
``` -/
def mpl_c_str : List Spec :=
  [
  ⟨[.cls .string []],
    [.cls .impl_empty_string [.cls .t_int []]],
    []⟩,
  ⟨[.cls .string [.pack .Cs]],
    [],
    [.type .type (.self 0)]⟩]

/-- `cpp11/impl/at_c.hpp:24-25`
```
template <char C, char... Cs, int N>
struct at_c<string<C, Cs...>, N> : at_c<string<Cs...>, N - 1> {};
```
`cpp11/impl/at_c.hpp:27-28`
```
template <char C, char... Cs>
struct at_c<string<C, Cs...>, 0> : boost::mpl::char_<C> {};
``` -/
def impl_at_c : List Spec :=
  [
  ⟨[.cls .string [.var .C, .pack .Cs], .num 0],
    [.cls .mpl_char_ [.var .C]],
    []⟩,
  ⟨[.cls .string [.var .C, .pack .Cs], .var .N],
    [.cls .impl_at_c [.cls .string [.spread .Cs], .op .sub (.var .N) (.num 1)]],
    []⟩]

/-- `cpp11/impl/size.hpp:26-27`
```
template <char... Cs>
struct size<string<Cs...>> : boost::mpl::int_<sizeof...(Cs)> {};
``` -/
def impl_size : List Spec :=
  [
  ⟨[.cls .string [.pack .Cs]],
    [.cls .mpl_int_ [.size .Cs]],
    []⟩]

/-- `cpp11/impl/pop_front.hpp:22-23`
```
template <char C, char... Cs>
struct pop_front<string<C, Cs...>> : string<Cs...> {};
``` -/
def impl_pop_front : List Spec :=
  [
  ⟨[.cls .string [.var .C, .pack .Cs]],
    [.cls .string [.spread .Cs]],
    []⟩]

/-- `cpp11/impl/push_front_c.hpp:22-23`
```
template <char... Cs, char C>
struct push_front_c<string<Cs...>, C> : string<C, Cs...> {};
``` -/
def impl_push_front_c : List Spec :=
  [
  ⟨[.cls .string [.pack .Cs], .var .C],
    [.cls .string [.var .C, .spread .Cs]],
    []⟩]

/-- `cpp11/impl/push_back_c.hpp:22-23`
```
template <char... Cs, char C>
struct push_back_c<string<Cs...>, C> : string<Cs..., C> {};
``` -/
def impl_push_back_c : List Spec :=
  [
  ⟨[.cls .string [.pack .Cs], .var .C],
    [.cls .string [.spread .Cs, .var .C]],
    []⟩]

/-- `cpp11/impl/concat.hpp:22-23`
```
template <char... As, char... Bs>
struct concat<string<As...>, string<Bs...>> : string<As..., Bs...> {};
``` -/
def impl_concat : List Spec :=
  [
  ⟨[.cls .string [.pack .As], .cls .string [.pack .Bs]],
    [.cls .string [.spread .As, .spread .Bs]],
    []⟩]

/-- `cpp11/impl/pop_back.hpp:26-27`
```
template <char C>
struct pop_back<string<C>> : boost::mpl::clear<string<C>> {};
```
`cpp11/impl/pop_back.hpp:29-32`
```
template <char C, char... Cs>
struct pop_back<string<C, Cs...>> :
  push_front_c<typename pop_back<string<Cs...>>::type, C>
{};
``` -/
def impl_pop_back : List Spec :=
  [
  ⟨[.cls .string [.var .C]],
    [.cls .mpl_clear [.cls .string [.var .C]]],
    []⟩,
  ⟨[.cls .string [.var .C, .pack .Cs]],
    [.cls .impl_push_front_c [.mem (.cls .impl_pop_back [.cls .string [.spread .Cs]]) .type, .var .C]],
    []⟩]

/-- `cpp11/impl/empty_string.hpp:17-23`
```
template <class Ignore = int>
struct empty_string
{
  typedef empty_string type;

  static constexpr char value[1] = {0};
};
``` -/
def impl_empty_string : List Spec :=
  [
  ⟨[.var .Ignore],
    [],
    [.type .type (.self 0)]⟩]

/-- `error/digit_expected.hpp:19-19`
```
BOOST_METAPARSE_V1_DEFINE_ERROR(digit_expected, "Digit expected");
``` -/
def error_digit_expected : List Spec :=
  [
  ⟨[],
    [],
    [.type .type (.self 0)]⟩]

/-- `error/end_of_input_expected.hpp:19-22`
```
BOOST_METAPARSE_V1_DEFINE_ERROR(
  end_of_input_expected,
  "End of input expected"
);
``` -/
def error_end_of_input_expected : List Spec :=
  [
  ⟨[],
    [],
    [.type .type (.self 0)]⟩]

/-- `error/expected_to_fail.hpp:19-22`
```
BOOST_METAPARSE_V1_DEFINE_ERROR(
  expected_to_fail,
  "Parser expected to fail"
);
``` -/
def error_expected_to_fail : List Spec :=
  [
  ⟨[],
    [],
    [.type .type (.self 0)]⟩]

/-- `error/index_out_of_range.hpp:21-34`
```
template <int From, int To, int N>
struct index_out_of_range
{
  typedef index_out_of_range type;

  static std::string get_value()
  {
    std::ostringstream s;
    s
      << "index (" << N << ") out of range ["
      << From << "-" << To << "]";
    return s.str();
  }
};
``` -/
def error_index_out_of_range : List Spec :=
  [
  ⟨[.var .From, .var .To, .var .N],
    [],
    [.type .type (.self 0)]⟩]

/-- `error/letter_expected.hpp:19-19`
```
BOOST_METAPARSE_V1_DEFINE_ERROR(letter_expected, "Letter expected");
``` -/
def error_letter_expected : List Spec :=
  [
  ⟨[],
    [],
    [.type .type (.self 0)]⟩]

/-- `error/literal_expected.hpp:19-28`
```
template <char C>
struct literal_expected
{
  typedef literal_expected type;

  static std::string get_value()
  {
    return std::string("Expected: ") + C;
  }
};
``` -/
def error_literal_expected : List Spec :=
  [
  ⟨[.var .C],
    [],
    [.type .type (.self 0)]⟩]

/-- `error/none_of_the_expected_cases_found.hpp:19-22`
```
BOOST_METAPARSE_V1_DEFINE_ERROR(
  none_of_the_expected_cases_found,
  "None of the expected cases found"
);
``` -/
def error_none_of_the_expected_cases_found : List Spec :=
  [
  ⟨[],
    [],
    [.type .type (.self 0)]⟩]

/-- `error/unexpected_character.hpp:19-22`
```
BOOST_METAPARSE_V1_DEFINE_ERROR(
  unexpected_character,
  "Unexpected character"
);
``` -/
def error_unexpected_character : List Spec :=
  [
  ⟨[],
    [],
    [.type .type (.self 0)]⟩]

/-- `error/unexpected_end_of_input.hpp:19-22`
```
BOOST_METAPARSE_V1_DEFINE_ERROR(
  unexpected_end_of_input,
  "Unexpected end of input"
);
``` -/
def error_unexpected_end_of_input : List Spec :=
  [
  ⟨[],
    [],
    [.type .type (.self 0)]⟩]

/-- `error/unpaired.hpp:23-34`
```
template <int Line, int Col, class Msg = boost::mpl::na>
struct unpaired
{
  typedef unpaired type;

  static std::string get_value()
  {
    std::ostringstream s;
    s << Msg::get_value() << " (see " << Line << ":" << Col << ")";
    return s.str();
  }
};
```
`error/unpaired.hpp:36-43`
```
template <int Line, int Col>
struct unpaired<Line, Col, boost::mpl::na>
{
  typedef unpaired type;

  template <class Msg = boost::mpl::na>
  struct apply : unpaired<Line, Col, Msg> {};
};
``` -/
def error_unpaired : List Spec :=
  [
  ⟨[.var .Line, .var .Col, .cls .mpl_na []],
    [],
    [.type .type (.self 0),
     .tmpl .apply [
      ⟨[.var .Msg],
        [.cls .error_unpaired [.var .Line, .var .Col, .var .Msg]],
        []⟩]]⟩,
  ⟨[.var .Line, .var .Col, .var .Msg],
    [],
    [.type .type (.self 0)]⟩]

/-- `error/whitespace_expected.hpp:19-22`
```
BOOST_METAPARSE_V1_DEFINE_ERROR(
  whitespace_expected,
  "Whitespace expected"
);
``` -/
def error_whitespace_expected : List Spec :=
  [
  ⟨[],
    [],
    [.type .type (.self 0)]⟩]

/-- `impl/void_.hpp:18-18`
```
struct void_ { typedef void_ type; };
``` -/
def impl_void_ : List Spec :=
  [
  ⟨[],
    [],
    [.type .type (.self 0)]⟩]

/-- `impl/is_char_c.hpp:19-26`
```
template <char C>
struct is_char_c
{
  typedef is_char_c type;

  template <class Ch>
  struct apply : boost::mpl::bool_<Ch::type::value == C> {};
};
``` -/
def impl_is_char_c : List Spec :=
  [
  ⟨[.var .C],
    [],
    [.type .type (.self 0),
     .tmpl .apply [
      ⟨[.var .Ch],
        [.cls .mpl_bool_ [.op .eq (.mem (.mem (.var .Ch) .type) .value) (.var .C)]],
        []⟩]]⟩]

/-- `impl/next_digit.hpp:19-29`
```
struct next_digit
{
  typedef next_digit type;

  template <class PartialResult, class NextDigit>
  struct apply :
    boost::mpl::int_<
      PartialResult::type::value * 10 + NextDigit::type::value
    >
  {};
};
``` -/
def impl_next_digit : List Spec :=
  [
  ⟨[],
    [],
    [.type .type (.self 0),
     .tmpl .apply [
      ⟨[.var .PartialResult, .var .NextDigit],
        [.cls .mpl_int_ [.op .add (.op .mul (.mem (.mem (.var .PartialResult) .type) .value) (.num 10)) (.mem (.mem (.var .NextDigit) .type) .value)]],
        []⟩]]⟩]

/-- `impl/back_inserter.hpp:19-25`
```
struct back_inserter
{
  typedef back_inserter type;

  template <class T0, class T1>
  struct apply : boost::mpl::push_back<T0, T1> {};
};
``` -/
def impl_back_inserter : List Spec :=
  [
  ⟨[],
    [],
    [.type .type (.self 0),
     .tmpl .apply [
      ⟨[.var .T0, .var .T1],
        [.cls .mpl_push_back [.var .T0, .var .T1]],
        []⟩]]⟩]

/-- `impl/front_inserter.hpp:19-25`
```
struct front_inserter
{
  typedef front_inserter type;

  template <class T0, class T1>
  struct apply : boost::mpl::push_front<T0, T1> {};
};
``` -/
def impl_front_inserter : List Spec :=
  [
  ⟨[],
    [],
    [.type .type (.self 0),
     .tmpl .apply [
      ⟨[.var .T0, .var .T1],
        [.cls .mpl_push_front [.var .T0, .var .T1]],
        []⟩]]⟩]

/-- `cpp11/impl/or_c.hpp:22-23`
```
template <>
struct or_c<> : boost::mpl::false_ {};
```
`cpp11/impl/or_c.hpp:25-26`
```
template <bool... Bs>
struct or_c<true, Bs...> : boost::mpl::true_ {};
```
`cpp11/impl/or_c.hpp:28-29`
```
template <bool... Bs>
struct or_c<false, Bs...> : or_c<Bs...> {};
``` -/
def impl_or_c : List Spec :=
  [
  ⟨[],
    [.cls .mpl_bool_ [.num 0]],
    []⟩,
  ⟨[.num 1, .pack .Bs],
    [.cls .mpl_bool_ [.num 1]],
    []⟩,
  ⟨[.num 0, .pack .Bs],
    [.cls .impl_or_c [.spread .Bs]],
    []⟩]

/-- `cpp11/impl/any_of_c.hpp:19-26`
```
template <char... Cs>
struct any_of_c
{
  typedef any_of_c type;

  template <class Chr>
  struct apply : or_c<(Chr::type::value == Cs)...> {};
};
``` -/
def impl_any_of_c : List Spec :=
  [
  ⟨[.pack .Cs],
    [],
    [.type .type (.self 0),
     .tmpl .apply [
      ⟨[.var .Chr],
        [.cls .impl_or_c [.each .Cs (.op .eq (.mem (.mem (.var .Chr) .type) .value) (.var .Cs))]],
        []⟩]]⟩]

/-- `cpp11/impl/is_none_c_impl.hpp:22-23`
```
template <char D>
struct is_none_c_impl<D> : boost::mpl::bool_<true> {};
```
`cpp11/impl/is_none_c_impl.hpp:25-26`
```
template <char D, char... Cs>
struct is_none_c_impl<D, D, Cs...> : boost::mpl::bool_<false> {};
```
`cpp11/impl/is_none_c_impl.hpp:28-29`
```
template <char D, char C, char... Cs>
struct is_none_c_impl<D, C, Cs...> : is_none_c_impl<D, Cs...> {};
``` -/
def impl_is_none_c_impl : List Spec :=
  [
  ⟨[.var .D],
    [.cls .mpl_bool_ [.num 1]],
    []⟩,
  ⟨[.var .D, .var .D, .pack .Cs],
    [.cls .mpl_bool_ [.num 0]],
    []⟩,
  ⟨[.var .D, .var .C, .pack .Cs],
    [.cls .impl_is_none_c_impl [.var .D, .spread .Cs]],
    []⟩]

/-- `cpp11/impl/is_none_c.hpp:19-26`
```
template <char... Cs>
struct is_none_c
{
  typedef is_none_c type;

  template <class C>
  struct apply : is_none_c_impl<C::type::value, Cs...> {};
};
``` -/
def impl_is_none_c : List Spec :=
  [
  ⟨[.pack .Cs],
    [],
    [.type .type (.self 0),
     .tmpl .apply [
      ⟨[.var .C],
        [.cls .impl_is_none_c_impl [.mem (.mem (.var .C) .type) .value, .spread .Cs]],
        []⟩]]⟩]

/-- `cpp11/impl/push_front_result.hpp:21-30`
```
template <class Value>
struct push_front_result
{
  typedef push_front_result type;

  template <class Seq>
  struct apply :
    boost::mpl::push_front<Seq, typename get_result<Value>::type>
  {};
};
``` -/
def impl_push_front_result : List Spec :=
  [
  ⟨[.var .Value],
    [],
    [.type .type (.self 0),
     .tmpl .apply [
      ⟨[.var .Seq],
        [.cls .mpl_push_front [.var .Seq, .mem (.cls .get_result [.var .Value]) .type]],
        []⟩]]⟩]

/-- `cpp11/impl/eval_later_result.hpp:22-32`
```
template <class R1, class R2>
struct eval_later_result :
  boost::mpl::eval_if<
    typename boost::mpl::less<
      typename get_position<R2>::type,
      typename get_position<R1>::type
    >::type,
    R1,
    R2
  >
{};
``` -/
def impl_eval_later_result : List Spec :=
  [
  ⟨[.var .R1, .var .R2],
    [.cls .mpl_eval_if [.mem (.cls .mpl_less [.mem (.cls .get_position [.var .R2]) .type, .mem (.cls .get_position [.var .R1]) .type]) .type, .var .R1, .var .R2]],
    []⟩]

/-- `util/in_range_c.hpp:19-31`
```
template <class T, T LowerBound, T UpperBound>
struct in_range_c
{
  typedef in_range_c type;

  template <class Item>
  struct apply :
    boost::mpl::bool_<(
      LowerBound <= Item::type::value
      && Item::type::value <= UpperBound
    )>
  {};
};
``` -/
def util_in_range_c : List Spec :=
  [
  ⟨[.var .T, .var .LowerBound, .var .UpperBound],
    [],
    [.type .type (.self 0),
     .tmpl .apply [
      ⟨[.var .Item],
        [.cls .mpl_bool_ [.op .and (.op .le (.var .LowerBound) (.mem (.mem (.var .Item) .type) .value)) (.op .le (.mem (.mem (.var .Item) .type) .value) (.var .UpperBound))]],
        []⟩]]⟩]

/-- `util/is_digit.hpp:21-22`
```
template <class C = boost::mpl::na>
struct is_digit : in_range_c<char, '0', '9'>::apply<C> {};
```
`util/is_digit.hpp:24-31`
```
template <>
struct is_digit<boost::mpl::na>
{
  typedef is_digit type;

  template <class C = boost::mpl::na>
  struct apply : is_digit<C> {};
};
``` -/
def util_is_digit : List Spec :=
  [
  ⟨[.cls .mpl_na []],
    [],
    [.type .type (.self 0),
     .tmpl .apply [
      ⟨[.var .C],
        [.cls .util_is_digit [.var .C]],
        []⟩]]⟩,
  ⟨[.var .C],
    [.memT (.cls .util_in_range_c [.cls .t_char [], .num 48, .num 57]) .apply [.var .C]],
    []⟩]

/-- `util/is_lcase_letter.hpp:21-22`
```
template <class C = boost::mpl::na>
struct is_lcase_letter : in_range_c<char, 'a', 'z'>::apply<C> {};
```
`util/is_lcase_letter.hpp:24-31`
```
template <>
struct is_lcase_letter<boost::mpl::na>
{
  typedef is_lcase_letter type;

  template <class C = boost::mpl::na>
  struct apply : is_lcase_letter<C> {};
};
``` -/
def util_is_lcase_letter : List Spec :=
  [
  ⟨[.cls .mpl_na []],
    [],
    [.type .type (.self 0),
     .tmpl .apply [
      ⟨[.var .C],
        [.cls .util_is_lcase_letter [.var .C]],
        []⟩]]⟩,
  ⟨[.var .C],
    [.memT (.cls .util_in_range_c [.cls .t_char [], .num 97, .num 122]) .apply [.var .C]],
    []⟩]

/-- `util/is_ucase_letter.hpp:21-22`
```
template <class C = boost::mpl::na>
struct is_ucase_letter : in_range_c<char, 'A', 'Z'>::apply<C> {};
```
`util/is_ucase_letter.hpp:24-31`
```
template <>
struct is_ucase_letter<boost::mpl::na>
{
  typedef is_ucase_letter type;

  template <class C = boost::mpl::na>
  struct apply : is_ucase_letter<C> {};
};
``` -/
def util_is_ucase_letter : List Spec :=
  [
  ⟨[.cls .mpl_na []],
    [],
    [.type .type (.self 0),
     .tmpl .apply [
      ⟨[.var .C],
        [.cls .util_is_ucase_letter [.var .C]],
        []⟩]]⟩,
  ⟨[.var .C],
    [.memT (.cls .util_in_range_c [.cls .t_char [], .num 65, .num 90]) .apply [.var .C]],
    []⟩]

/-- `util/is_letter.hpp:23-28`
```
template <class C = boost::mpl::na>
struct is_letter :
  boost::mpl::bool_<
    is_lcase_letter<C>::type::value || is_ucase_letter<C>::type::value
  >
{};
```
`util/is_letter.hpp:30-37`
```
template <>
struct is_letter<boost::mpl::na>
{
  typedef is_letter type;

  template <class C = boost::mpl::na>
  struct apply : is_letter<C> {};
};
``` -/
def util_is_letter : List Spec :=
  [
  ⟨[.cls .mpl_na []],
    [],
    [.type .type (.self 0),
     .tmpl .apply [
      ⟨[.var .C],
        [.cls .util_is_letter [.var .C]],
        []⟩]]⟩,
  ⟨[.var .C],
    [.cls .mpl_bool_ [.op .or (.mem (.mem (.cls .util_is_lcase_letter [.var .C]) .type) .value) (.mem (.mem (.cls .util_is_ucase_letter [.var .C]) .type) .value)]],
    []⟩]

/-- `util/is_whitespace_c.hpp:19-20`
```
template <char C>
struct is_whitespace_c : boost::mpl::false_ {};
```
`util/is_whitespace_c.hpp:22-22`
```
template <> struct is_whitespace_c<' '> : boost::mpl::true_ {};
```
`util/is_whitespace_c.hpp:23-23`
```
template <> struct is_whitespace_c<'\r'> : boost::mpl::true_ {};
```
`util/is_whitespace_c.hpp:24-24`
```
template <> struct is_whitespace_c<'\n'> : boost::mpl::true_ {};
```
`util/is_whitespace_c.hpp:25-25`
```
template <> struct is_whitespace_c<'\t'> : boost::mpl::true_ {};
``` -/
def util_is_whitespace_c : List Spec :=
  [
  ⟨[.num 32],
    [.cls .mpl_bool_ [.num 1]],
    []⟩,
  ⟨[.num 13],
    [.cls .mpl_bool_ [.num 1]],
    []⟩,
  ⟨[.num 10],
    [.cls .mpl_bool_ [.num 1]],
    []⟩,
  ⟨[.num 9],
    [.cls .mpl_bool_ [.num 1]],
    []⟩,
  ⟨[.var .C],
    [.cls .mpl_bool_ [.num 0]],
    []⟩]

/-- `util/is_whitespace.hpp:21-22`
```
template <class C = boost::mpl::na>
struct is_whitespace : is_whitespace_c<C::type::value> {};
```
`util/is_whitespace.hpp:24-31`
```
template <>
struct is_whitespace<boost::mpl::na>
{
  typedef is_whitespace type;

  template <class C = boost::mpl::na>
  struct apply : is_whitespace<C> {};
};
``` -/
def util_is_whitespace : List Spec :=
  [
  ⟨[.cls .mpl_na []],
    [],
    [.type .type (.self 0),
     .tmpl .apply [
      ⟨[.var .C],
        [.cls .util_is_whitespace [.var .C]],
        []⟩]]⟩,
  ⟨[.var .C],
    [.cls .util_is_whitespace_c [.mem (.mem (.var .C) .type) .value]],
    []⟩]

/-- `util/digit_to_int_c.hpp:21-22`
```
template <char C>
struct digit_to_int_c : error::digit_expected {};
```
`util/digit_to_int_c.hpp:24-24`
```
template <> struct digit_to_int_c<'0'> : boost::mpl::int_<0> {};
```
`util/digit_to_int_c.hpp:25-25`
```
template <> struct digit_to_int_c<'1'> : boost::mpl::int_<1> {};
```
`util/digit_to_int_c.hpp:26-26`
```
template <> struct digit_to_int_c<'2'> : boost::mpl::int_<2> {};
```
`util/digit_to_int_c.hpp:27-27`
```
template <> struct digit_to_int_c<'3'> : boost::mpl::int_<3> {};
```
`util/digit_to_int_c.hpp:28-28`
```
template <> struct digit_to_int_c<'4'> : boost::mpl::int_<4> {};
```
`util/digit_to_int_c.hpp:29-29`
```
template <> struct digit_to_int_c<'5'> : boost::mpl::int_<5> {};
```
`util/digit_to_int_c.hpp:30-30`
```
template <> struct digit_to_int_c<'6'> : boost::mpl::int_<6> {};
```
`util/digit_to_int_c.hpp:31-31`
```
template <> struct digit_to_int_c<'7'> : boost::mpl::int_<7> {};
```
`util/digit_to_int_c.hpp:32-32`
```
template <> struct digit_to_int_c<'8'> : boost::mpl::int_<8> {};
```
`util/digit_to_int_c.hpp:33-33`
```
template <> struct digit_to_int_c<'9'> : boost::mpl::int_<9> {};
``` -/
def util_digit_to_int_c : List Spec :=
  [
  ⟨[.num 48],
    [.cls .mpl_int_ [.num 0]],
    []⟩,
  ⟨[.num 49],
    [.cls .mpl_int_ [.num 1]],
    []⟩,
  ⟨[.num 50],
    [.cls .mpl_int_ [.num 2]],
    []⟩,
  ⟨[.num 51],
    [.cls .mpl_int_ [.num 3]],
    []⟩,
  ⟨[.num 52],
    [.cls .mpl_int_ [.num 4]],
    []⟩,
  ⟨[.num 53],
    [.cls .mpl_int_ [.num 5]],
    []⟩,
  ⟨[.num 54],
    [.cls .mpl_int_ [.num 6]],
    []⟩,
  ⟨[.num 55],
    [.cls .mpl_int_ [.num 7]],
    []⟩,
  ⟨[.num 56],
    [.cls .mpl_int_ [.num 8]],
    []⟩,
  ⟨[.num 57],
    [.cls .mpl_int_ [.num 9]],
    []⟩,
  ⟨[.var .C],
    [.cls .error_digit_expected []],
    []⟩]

/-- `util/digit_to_int.hpp:21-22`
```
template <class D = boost::mpl::na>
struct digit_to_int : digit_to_int_c<D::type::value> {};
```
`util/digit_to_int.hpp:24-31`
```
template <>
struct digit_to_int<boost::mpl::na>
{
  typedef digit_to_int type;

  template <class D = boost::mpl::na>
  struct apply : digit_to_int<D> {};
};
``` -/
def util_digit_to_int : List Spec :=
  [
  ⟨[.cls .mpl_na []],
    [],
    [.type .type (.self 0),
     .tmpl .apply [
      ⟨[.var .D],
        [.cls .util_digit_to_int [.var .D]],
        []⟩]]⟩,
  ⟨[.var .D],
    [.cls .util_digit_to_int_c [.mem (.mem (.var .D) .type) .value]],
    []⟩]

/-- `util/in_range.hpp:24-34`
```
template <
  class LowerBound = boost::mpl::na,
  class UpperBound = boost::mpl::na,
  class Item = boost::mpl::na
>
struct in_range :
  boost::mpl::bool_<
    boost::mpl::less_equal<LowerBound, Item>::type::value
    && boost::mpl::less_equal<Item, UpperBound>::type::value
  >
{};
```
`util/in_range.hpp:36-43`
```
template <class LowerBound, class UpperBound>
struct in_range<LowerBound, UpperBound, boost::mpl::na>
{
  typedef in_range type;

  template <class Item = boost::mpl::na>
  struct apply : in_range<LowerBound, UpperBound, Item> {};
};
```
`util/in_range.hpp:45-55`
```
template <class LowerBound>
struct in_range<LowerBound, boost::mpl::na, boost::mpl::na>
{
  typedef in_range type;

  template <
    class UpperBound = boost::mpl::na,
    class Item = boost::mpl::na
  >
  struct apply : in_range<LowerBound, UpperBound, Item> {};
};
```
`util/in_range.hpp:57-68`
```
template <>
struct in_range<boost::mpl::na, boost::mpl::na, boost::mpl::na>
{
  typedef in_range type;

  template <
    class LowerBound = boost::mpl::na,
    class UpperBound = boost::mpl::na,
    class Item = boost::mpl::na
  >
  struct apply : in_range<LowerBound, UpperBound, Item> {};
};
``` -/
def util_in_range : List Spec :=
  [
  ⟨[.cls .mpl_na [], .cls .mpl_na [], .cls .mpl_na []],
    [],
    [.type .type (.self 0),
     .tmpl .apply [
      ⟨[.var .LowerBound, .var .UpperBound, .var .Item],
        [.cls .util_in_range [.var .LowerBound, .var .UpperBound, .var .Item]],
        []⟩]]⟩,
  ⟨[.var .LowerBound, .cls .mpl_na [], .cls .mpl_na []],
    [],
    [.type .type (.self 0),
     .tmpl .apply [
      ⟨[.var .UpperBound, .var .Item],
        [.cls .util_in_range [.var .LowerBound, .var .UpperBound, .var .Item]],
        []⟩]]⟩,
  ⟨[.var .LowerBound, .var .UpperBound, .cls .mpl_na []],
    [],
    [.type .type (.self 0),
     .tmpl .apply [
      ⟨[.var .Item],
        [.cls .util_in_range [.var .LowerBound, .var .UpperBound, .var .Item]],
        []⟩]]⟩,
  ⟨[.var .LowerBound, .var .UpperBound, .var .Item],
    [.cls .mpl_bool_ [.op .and (.mem (.mem (.cls .mpl_less_equal [.var .LowerBound, .var .Item]) .type) .value) (.mem (.mem (.cls .mpl_less_equal [.var .Item, .var .UpperBound]) .type) .value)]],
    []⟩]

/-- `util/int_to_digit_c.hpp:22-22`
```
template <> struct int_to_digit_c<0> : boost::mpl::char_<'0'> {};
```
`util/int_to_digit_c.hpp:23-23`
```
template <> struct int_to_digit_c<1> : boost::mpl::char_<'1'> {};
```
`util/int_to_digit_c.hpp:24-24`
```
template <> struct int_to_digit_c<2> : boost::mpl::char_<'2'> {};
```
`util/int_to_digit_c.hpp:25-25`
```
template <> struct int_to_digit_c<3> : boost::mpl::char_<'3'> {};
```
`util/int_to_digit_c.hpp:26-26`
```
template <> struct int_to_digit_c<4> : boost::mpl::char_<'4'> {};
```
`util/int_to_digit_c.hpp:27-27`
```
template <> struct int_to_digit_c<5> : boost::mpl::char_<'5'> {};
```
`util/int_to_digit_c.hpp:28-28`
```
template <> struct int_to_digit_c<6> : boost::mpl::char_<'6'> {};
```
`util/int_to_digit_c.hpp:29-29`
```
template <> struct int_to_digit_c<7> : boost::mpl::char_<'7'> {};
```
`util/int_to_digit_c.hpp:30-30`
```
template <> struct int_to_digit_c<8> : boost::mpl::char_<'8'> {};
```
`util/int_to_digit_c.hpp:31-31`
```
template <> struct int_to_digit_c<9> : boost::mpl::char_<'9'> {};
``` -/
def util_int_to_digit_c : List Spec :=
  [
  ⟨[.num 0],
    [.cls .mpl_char_ [.num 48]],
    []⟩,
  ⟨[.num 1],
    [.cls .mpl_char_ [.num 49]],
    []⟩,
  ⟨[.num 2],
    [.cls .mpl_char_ [.num 50]],
    []⟩,
  ⟨[.num 3],
    [.cls .mpl_char_ [.num 51]],
    []⟩,
  ⟨[.num 4],
    [.cls .mpl_char_ [.num 52]],
    []⟩,
  ⟨[.num 5],
    [.cls .mpl_char_ [.num 53]],
    []⟩,
  ⟨[.num 6],
    [.cls .mpl_char_ [.num 54]],
    []⟩,
  ⟨[.num 7],
    [.cls .mpl_char_ [.num 55]],
    []⟩,
  ⟨[.num 8],
    [.cls .mpl_char_ [.num 56]],
    []⟩,
  ⟨[.num 9],
    [.cls .mpl_char_ [.num 57]],
    []⟩]

/-- `util/int_to_digit.hpp:21-22`
```
template <class N = boost::mpl::na>
struct int_to_digit : int_to_digit_c<N::type::value> {};
```
`util/int_to_digit.hpp:24-31`
```
template <>
struct int_to_digit<boost::mpl::na>
{
  typedef int_to_digit type;

  template <class N = boost::mpl::na>
  struct apply : int_to_digit<N> {};
};
``` -/
def util_int_to_digit : List Spec :=
  [
  ⟨[.cls .mpl_na []],
    [],
    [.type .type (.self 0),
     .tmpl .apply [
      ⟨[.var .N],
        [.cls .util_int_to_digit [.var .N]],
        []⟩]]⟩,
  ⟨[.var .N],
    [.cls .util_int_to_digit_c [.mem (.mem (.var .N) .type) .value]],
    []⟩]

/-- `start.hpp:20-26` -/
def alias_start : Tm :=
  .cls .source_position [.cls .mpl_int_ [.num 1], .cls .mpl_int_ [.num 1], .cls .mpl_char_ [.num 0]]

end Metaparse.Tmpl.Hdr

import Verif.Model.Templates.Syntax
/-!
# The headers, translated: parsers

Translated by `/verif/translate/translate.py` from the headers of C++11. Paths are relative to
`/repo/include/boost/metaparse/v1/`.
-/

namespace Metaparse.Tmpl.Hdr

/-- `one_char.hpp:28-65`
```
struct one_char
{
private:
  template <class C, class Pos>
  struct next_pos :
    boost::mpl::eval_if<
      boost::mpl::bool_<
        C::type::value == '\r'
        || (
          C::type::value == '\n'
          && get_prev_char<Pos>::type::value != '\r'
        )
      >,
      next_line<Pos, C>,
      next_char<Pos, C>
    >
  {};

  template <class S, class NextPos>
  struct unchecked :
    accept<
      typename boost::mpl::front<S>::type,
      boost::mpl::pop_front<S>,
      NextPos
    >
  {};
public:
  typedef one_char type;

  template <class S, class Pos>
  struct apply :
    boost::mpl::eval_if<
      typename boost::mpl::empty<S>::type,
      reject<error::unexpected_end_of_input, Pos>,
      unchecked<S, next_pos<boost::mpl::front<S>, Pos> >
    >
  {};
};
``` -/
def one_char : List Spec :=
  [
  ⟨[],
    [],
    [.tmpl .next_pos [
      ⟨[.var .C, .var .Pos],
        [.cls .mpl_eval_if [.cls .mpl_bool_ [.op .or (.op .eq (.mem (.mem (.var .C) .type) .value) (.num 13)) (.op .and (.op .eq (.mem (.mem (.var .C) .type) .value) (.num 10)) (.op .ne (.mem (.mem (.cls .get_prev_char [.var .Pos]) .type) .value) (.num 13)))], .cls .next_line [.var .Pos, .var .C], .cls .next_char [.var .Pos, .var .C]]],
        []⟩],
     .tmpl .unchecked [
      ⟨[.var .S, .var .NextPos],
        [.cls .accept [.mem (.cls .mpl_front [.var .S]) .type, .cls .mpl_pop_front [.var .S], .var .NextPos]],
        []⟩],
     .type .type (.self 0),
     .tmpl .apply [
      ⟨[.var .S, .var .Pos],
        [.cls .mpl_eval_if [.mem (.cls .mpl_empty [.var .S]) .type, .cls .reject [.cls .error_unexpected_end_of_input [], .var .Pos], .inner 1 .unchecked [.var .S, .inner 1 .next_pos [.cls .mpl_front [.var .S], .var .Pos]]]],
        []⟩]]⟩]

/-- `empty.hpp:23-36`
```
template <class Result>
struct empty
{
  typedef empty type;

  template <class S, class Pos>
  struct apply :
    boost::mpl::if_<
      boost::mpl::empty<S>,
      accept<Result, S, Pos>,
      reject<error::end_of_input_expected, Pos>
    >
  {};
};
``` -/
def empty : List Spec :=
  [
  ⟨[.var .Result],
    [],
    [.type .type (.self 0),
     .tmpl .apply [
      ⟨[.var .S, .var .Pos],
        [.cls .mpl_if_ [.cls .mpl_empty [.var .S], .cls .accept [.var .Result, .var .S, .var .Pos], .cls .reject [.cls .error_end_of_input_expected [], .var .Pos]]],
        []⟩]]⟩]

/-- `fail.hpp:17-24`
```
template <class Msg>
struct fail
{
  typedef fail type;

  template <class S, class Pos>
  struct apply : reject<Msg, Pos> {};
};
``` -/
def fail : List Spec :=
  [
  ⟨[.var .Msg],
    [],
    [.type .type (.self 0),
     .tmpl .apply [
      ⟨[.var .S, .var .Pos],
        [.cls .reject [.var .Msg, .var .Pos]],
        []⟩]]⟩]

/-- `return_.hpp:21-28`
```
template <class C>
struct return_
{
  typedef return_ type;

  template <class S, class Pos>
  struct apply : accept<C, S, Pos> {};
};
``` -/
def return_ : List Spec :=
  [
  ⟨[.var .C],
    [],
    [.type .type (.self 0),
     .tmpl .apply [
      ⟨[.var .S, .var .Pos],
        [.cls .accept [.var .C, .var .S, .var .Pos]],
        []⟩]]⟩]

/-- `accept_when.hpp:22-53`
```
template <class P, class Pred, class Msg>
struct accept_when
{
private:
  struct unchecked
  {
    template <class S, class Pos>
    struct apply :
      boost::mpl::eval_if<
        typename Pred::template apply<
          typename get_result<typename P::template apply<S, Pos> >::type
        >::type,
        typename P::template apply<S, Pos>,
        reject<Msg, Pos>
      >
    {};
  };
public:
  typedef accept_when type;

  template <class S, class Pos>
  struct apply :
    boost::mpl::if_<
      is_error<typename P::template apply<S, Pos> >,
      P,
      unchecked
    >::type::template apply<
      S,
      Pos
    >
  {};
};
``` -/
def accept_when : List Spec :=
  [
  ⟨[.var .P, .var .Pred, .var .Msg],
    [],
    [.tmpl .unchecked [
      ⟨[],
        [],
        [.tmpl .apply [
          ⟨[.var .S, .var .Pos],
            [.cls .mpl_eval_if [.mem (.memT (.var .Pred) .apply [.mem (.cls .get_result [.memT (.var .P) .apply [.var .S, .var .Pos]]) .type]) .type, .memT (.var .P) .apply [.var .S, .var .Pos], .cls .reject [.var .Msg, .var .Pos]]],
            []⟩]]⟩],
     .type .type (.self 0),
     .tmpl .apply [
      ⟨[.var .S, .var .Pos],
        [.memT (.mem (.cls .mpl_if_ [.cls .is_error [.memT (.var .P) .apply [.var .S, .var .Pos]], .var .P, .inner 1 .unchecked []]) .type) .apply [.var .S, .var .Pos]],
        []⟩]]⟩]

/-- `change_error_message.hpp:20-33`
```
template <class P, class Msg>
struct change_error_message
{
  template <class S, class Pos>
  struct apply :
    boost::mpl::eval_if<
      typename is_error<typename P::template apply<S, Pos> >::type,
      reject<Msg, Pos>,
      typename P::template apply<S, Pos>
    >
  {};

  typedef change_error_message type;
};
``` -/
def change_error_message : List Spec :=
  [
  ⟨[.var .P, .var .Msg],
    [],
    [.tmpl .apply [
      ⟨[.var .S, .var .Pos],
        [.cls .mpl_eval_if [.mem (.cls .is_error [.memT (.var .P) .apply [.var .S, .var .Pos]]) .type, .cls .reject [.var .Msg, .var .Pos], .memT (.var .P) .apply [.var .S, .var .Pos]]],
        []⟩],
     .type .type (.self 0)]⟩]

/-- `transform_error_message.hpp:22-43`
```
template <class P, class F>
struct transform_error_message
{
  template <class R>
  struct rejection :
    reject<
      typename F::template apply<typename get_message<R>::type>::type,
      get_position<R>
    >
  {};

  template <class S, class Pos>
  struct apply :
    boost::mpl::eval_if<
      typename is_error<typename P::template apply<S, Pos> >::type,
      rejection<typename P::template apply<S, Pos> >,
      typename P::template apply<S, Pos>
    >
  {};

  typedef transform_error_message type;
};
``` -/
def transform_error_message : List Spec :=
  [
  ⟨[.var .P, .var .F],
    [],
    [.tmpl .rejection [
      ⟨[.var .R],
        [.cls .reject [.mem (.memT (.var .F) .apply [.mem (.cls .get_message [.var .R]) .type]) .type, .cls .get_position [.var .R]]],
        []⟩],
     .tmpl .apply [
      ⟨[.var .S, .var .Pos],
        [.cls .mpl_eval_if [.mem (.cls .is_error [.memT (.var .P) .apply [.var .S, .var .Pos]]) .type, .inner 1 .rejection [.memT (.var .P) .apply [.var .S, .var .Pos]], .memT (.var .P) .apply [.var .S, .var .Pos]]],
        []⟩],
     .type .type (.self 0)]⟩]

/-- `transform_error.hpp:19-34`
```
template <class P, class F>
struct transform_error
{
  template <class S, class Pos>
  struct apply :
    boost::mpl::eval_if<
      typename is_error<typename P::template apply<S, Pos> >::type,
      typename F::template apply<
        typename P::template apply<S, Pos>::type
      >,
      typename P::template apply<S, Pos>
    >
  {};

  typedef transform_error type;
};
``` -/
def transform_error : List Spec :=
  [
  ⟨[.var .P, .var .F],
    [],
    [.tmpl .apply [
      ⟨[.var .S, .var .Pos],
        [.cls .mpl_eval_if [.mem (.cls .is_error [.memT (.var .P) .apply [.var .S, .var .Pos]]) .type, .memT (.var .F) .apply [.mem (.memT (.var .P) .apply [.var .S, .var .Pos]) .type], .memT (.var .P) .apply [.var .S, .var .Pos]]],
        []⟩],
     .type .type (.self 0)]⟩]

/-- `transform.hpp:23-44`
```
template <class P, class T>
struct transform
{
private:
  template <class S, class Pos>
  struct no_error :
    accept<
      typename T::template apply<
        typename get_result<typename P::template apply<S, Pos> >::type
      >::type,
      get_remaining<typename P::template apply<S, Pos> >,
      get_position<typename P::template apply<S, Pos> >
    >
  {};
public:
  typedef transform type;

  template <class S, class Pos>
  struct apply :
    unless_error<typename P::template apply<S, Pos>, no_error<S, Pos> >
  {};
};
``` -/
def transform : List Spec :=
  [
  ⟨[.var .P, .var .T],
    [],
    [.tmpl .no_error [
      ⟨[.var .S, .var .Pos],
        [.cls .accept [.mem (.memT (.var .T) .apply [.mem (.cls .get_result [.memT (.var .P) .apply [.var .S, .var .Pos]]) .type]) .type, .cls .get_remaining [.memT (.var .P) .apply [.var .S, .var .Pos]], .cls .get_position [.memT (.var .P) .apply [.var .S, .var .Pos]]]],
        []⟩],
     .type .type (.self 0),
     .tmpl .apply [
      ⟨[.var .S, .var .Pos],
        [.cls .unless_error [.memT (.var .P) .apply [.var .S, .var .Pos], .inner 1 .no_error [.var .S, .var .Pos]]],
        []⟩]]⟩]

/-- `always.hpp:22-45`
```
template <class P, class Result>
struct always
{
private:
  template <class Res>
  struct apply_unchecked :
    accept<
      Result,
      typename get_remaining<Res>::type,
      typename get_position<Res>::type
    >
  {};
public:
  typedef always type;

  template <class S, class Pos>
  struct apply :
    boost::mpl::eval_if<
      typename is_error<typename P::template apply<S, Pos> >::type,
      typename P::template apply<S, Pos>,
      apply_unchecked<typename P::template apply<S, Pos> >
    >
  {};
};
``` -/
def always : List Spec :=
  [
  ⟨[.var .P, .var .Result],
    [],
    [.tmpl .apply_unchecked [
      ⟨[.var .Res],
        [.cls .accept [.var .Result, .mem (.cls .get_remaining [.var .Res]) .type, .mem (.cls .get_position [.var .Res]) .type]],
        []⟩],
     .type .type (.self 0),
     .tmpl .apply [
      ⟨[.var .S, .var .Pos],
        [.cls .mpl_eval_if [.mem (.cls .is_error [.memT (.var .P) .apply [.var .S, .var .Pos]]) .type, .memT (.var .P) .apply [.var .S, .var .Pos], .inner 1 .apply_unchecked [.memT (.var .P) .apply [.var .S, .var .Pos]]]],
        []⟩]]⟩]

/-- `look_ahead.hpp:21-44`
```
template <class P>
struct look_ahead
{
private:
  template <class S, class Pos>
  struct no_error :
    accept<
      typename get_result<typename P::template apply<S, Pos> >::type,
      S,
      Pos
    >
  {};
public:
  typedef look_ahead type;

  template <class S, class Pos>
  struct apply :
    boost::mpl::eval_if<
      typename is_error<typename P::template apply<S, Pos> >::type,
      typename P::template apply<S, Pos>,
      no_error<S, Pos>
    >
  {};
};
``` -/
def look_ahead : List Spec :=
  [
  ⟨[.var .P],
    [],
    [.tmpl .no_error [
      ⟨[.var .S, .var .Pos],
        [.cls .accept [.mem (.cls .get_result [.memT (.var .P) .apply [.var .S, .var .Pos]]) .type, .var .S, .var .Pos]],
        []⟩],
     .type .type (.self 0),
     .tmpl .apply [
      ⟨[.var .S, .var .Pos],
        [.cls .mpl_eval_if [.mem (.cls .is_error [.memT (.var .P) .apply [.var .S, .var .Pos]]) .type, .memT (.var .P) .apply [.var .S, .var .Pos], .inner 1 .no_error [.var .S, .var .Pos]]],
        []⟩]]⟩]

/-- `except.hpp:21-34`
```
template <class P, class Result, class ErrorMsg>
struct except
{
  typedef except type;

  template <class S, class Pos>
  struct apply :
    boost::mpl::if_<
      is_error<typename P::template apply<S, Pos> >,
      accept<Result, S, Pos>,
      reject<ErrorMsg, Pos>
    >
  {};
};
``` -/
def except : List Spec :=
  [
  ⟨[.var .P, .var .Result, .var .ErrorMsg],
    [],
    [.type .type (.self 0),
     .tmpl .apply [
      ⟨[.var .S, .var .Pos],
        [.cls .mpl_if_ [.cls .is_error [.memT (.var .P) .apply [.var .S, .var .Pos]], .cls .accept [.var .Result, .var .S, .var .Pos], .cls .reject [.var .ErrorMsg, .var .Pos]]],
        []⟩]]⟩]

/-- `optional.hpp:20-34`
```
template <class P, class Default = void>
struct optional
{
  typedef optional type;

  template <class S, class Pos>
  struct apply :
    boost::mpl::if_<
      is_error<typename P::template apply<S, Pos> >,
      accept<Default, S, Pos>,
      // is_error evaluates it anyway
      typename P::template apply<S, Pos>::type
    >
  {};
};
``` -/
def optional : List Spec :=
  [
  ⟨[.var .P, .var .Default],
    [],
    [.type .type (.self 0),
     .tmpl .apply [
      ⟨[.var .S, .var .Pos],
        [.cls .mpl_if_ [.cls .is_error [.memT (.var .P) .apply [.var .S, .var .Pos]], .cls .accept [.var .Default, .var .S, .var .Pos], .mem (.memT (.var .P) .apply [.var .S, .var .Pos]) .type]],
        []⟩]]⟩]

/-- `if_.hpp:20-37`
```
template <class P, class T, class F>
struct if_
{
  typedef if_ type;

  template <class S, class Pos>
  struct apply :
    accept<
      typename boost::mpl::if_<
        is_error<typename P::template apply<S, Pos> >,
        F,
        T
      >::type,
      S,
      Pos
    >
  {};
};
``` -/
def if_ : List Spec :=
  [
  ⟨[.var .P, .var .T, .var .F],
    [],
    [.type .type (.self 0),
     .tmpl .apply [
      ⟨[.var .S, .var .Pos],
        [.cls .accept [.mem (.cls .mpl_if_ [.cls .is_error [.memT (.var .P) .apply [.var .S, .var .Pos]], .var .F, .var .T]) .type, .var .S, .var .Pos]],
        []⟩]]⟩]

/-- `fail_at_first_char_expected.hpp:26-52`
```
template <class P>
struct fail_at_first_char_expected
{
private:
  template <class S, class Pos>
  struct apply_err :
    boost::mpl::eval_if<
      typename boost::mpl::equal_to<
        Pos,
        typename get_position<typename P::template apply<S, Pos> >::type
      >::type,
      accept<impl::void_, S, Pos>,
      typename P::template apply<S, Pos>
    >
  {};
public:
  typedef fail_at_first_char_expected type;

  template <class S, class Pos>
  struct apply :
    boost::mpl::eval_if<
      typename is_error<typename P::template apply<S, Pos> >::type,
      apply_err<S, Pos>,
      reject<error::expected_to_fail, Pos>
    >
  {};
};
``` -/
def fail_at_first_char_expected : List Spec :=
  [
  ⟨[.var .P],
    [],
    [.tmpl .apply_err [
      ⟨[.var .S, .var .Pos],
        [.cls .mpl_eval_if [.mem (.cls .mpl_equal_to [.var .Pos, .mem (.cls .get_position [.memT (.var .P) .apply [.var .S, .var .Pos]]) .type]) .type, .cls .accept [.cls .impl_void_ [], .var .S, .var .Pos], .memT (.var .P) .apply [.var .S, .var .Pos]]],
        []⟩],
     .type .type (.self 0),
     .tmpl .apply [
      ⟨[.var .S, .var .Pos],
        [.cls .mpl_eval_if [.mem (.cls .is_error [.memT (.var .P) .apply [.var .S, .var .Pos]]) .type, .inner 1 .apply_err [.var .S, .var .Pos], .cls .reject [.cls .error_expected_to_fail [], .var .Pos]]],
        []⟩]]⟩]

/-- `foldl.hpp:23-59`
```
template <class P, class State, class ForwardOp>
struct foldl
{
private:
  template <class Res>
  struct apply_unchecked :
    // foldl never returns error
    // I need to use apply_wrap, and not apply, because apply would
    // build a metafunction class from foldl<P, State, ForwardOp>
    // when ForwardOp is a lambda expression.
    foldl<
      P,
      typename ForwardOp::template apply<
        typename State::type,
        typename get_result<Res>::type
      >,
      ForwardOp
    >::template apply<
      typename get_remaining<Res>::type,
      typename get_position<Res>::type
    >
  {};

  template <class S, class Pos>
  struct next_iteration : accept<typename State::type, S, Pos> {};
public:
  typedef foldl type;

  template <class S, class Pos>
  struct apply :
    boost::mpl::eval_if<
      typename is_error<typename P::template apply<S, Pos> >::type,
      next_iteration<S, Pos>,
      apply_unchecked<typename P::template apply<S, Pos> >
    >
  {};
};
``` -/
def foldl : List Spec :=
  [
  ⟨[.var .P, .var .State, .var .ForwardOp],
    [],
    [.tmpl .apply_unchecked [
      ⟨[.var .Res],
        [.memT (.cls .foldl [.var .P, .memT (.var .ForwardOp) .apply [.mem (.var .State) .type, .mem (.cls .get_result [.var .Res]) .type], .var .ForwardOp]) .apply [.mem (.cls .get_remaining [.var .Res]) .type, .mem (.cls .get_position [.var .Res]) .type]],
        []⟩],
     .tmpl .next_iteration [
      ⟨[.var .S, .var .Pos],
        [.cls .accept [.mem (.var .State) .type, .var .S, .var .Pos]],
        []⟩],
     .type .type (.self 0),
     .tmpl .apply [
      ⟨[.var .S, .var .Pos],
        [.cls .mpl_eval_if [.mem (.cls .is_error [.memT (.var .P) .apply [.var .S, .var .Pos]]) .type, .inner 1 .next_iteration [.var .S, .var .Pos], .inner 1 .apply_unchecked [.memT (.var .P) .apply [.var .S, .var .Pos]]]],
        []⟩]]⟩]

/-- `foldl_reject_incomplete.hpp:24-71`
```
template <class P, class State, class ForwardOp>
struct foldl_reject_incomplete
{
private:
  template <class Res>
  struct apply_unchecked :
    // I need to use apply_wrap, and not apply, because apply would
    // build a metafunction class from foldl<P, State, ForwardOp>
    // when ForwardOp is a lambda expression.
    foldl_reject_incomplete<
      P,
      typename ForwardOp::template apply<
        typename State::type,
        typename get_result<Res>::type
      >,
      ForwardOp
    >::template apply<
      typename get_remaining<Res>::type,
      typename get_position<Res>::type
    >
  {};

template <class S, class Pos>
struct accept_state : accept<typename State::type, S, Pos> {};

template <class S, class Pos>
struct end_of_folding :
  boost::mpl::eval_if<
    typename boost::mpl::equal_to<
      typename Pos::type,
      typename get_position<typename P::template apply<S, Pos> >::type
    >::type,
    accept_state<S, Pos>,
    typename P::template apply<S, Pos>
  >
{};
public:
  typedef foldl_reject_incomplete type;

  template <class S, class Pos>
  struct apply :
    boost::mpl::eval_if<
      typename is_error<typename P::template apply<S, Pos> >::type,
      end_of_folding<S, Pos>,
      apply_unchecked<typename P::template apply<S, Pos> >
    >
  {};
};
``` -/
def foldl_reject_incomplete : List Spec :=
  [
  ⟨[.var .P, .var .State, .var .ForwardOp],
    [],
    [.tmpl .apply_unchecked [
      ⟨[.var .Res],
        [.memT (.cls .foldl_reject_incomplete [.var .P, .memT (.var .ForwardOp) .apply [.mem (.var .State) .type, .mem (.cls .get_result [.var .Res]) .type], .var .ForwardOp]) .apply [.mem (.cls .get_remaining [.var .Res]) .type, .mem (.cls .get_position [.var .Res]) .type]],
        []⟩],
     .tmpl .accept_state [
      ⟨[.var .S, .var .Pos],
        [.cls .accept [.mem (.var .State) .type, .var .S, .var .Pos]],
        []⟩],
     .tmpl .end_of_folding [
      ⟨[.var .S, .var .Pos],
        [.cls .mpl_eval_if [.mem (.cls .mpl_equal_to [.mem (.var .Pos) .type, .mem (.cls .get_position [.memT (.var .P) .apply [.var .S, .var .Pos]]) .type]) .type, .inner 1 .accept_state [.var .S, .var .Pos], .memT (.var .P) .apply [.var .S, .var .Pos]]],
        []⟩],
     .type .type (.self 0),
     .tmpl .apply [
      ⟨[.var .S, .var .Pos],
        [.cls .mpl_eval_if [.mem (.cls .is_error [.memT (.var .P) .apply [.var .S, .var .Pos]]) .type, .inner 1 .end_of_folding [.var .S, .var .Pos], .inner 1 .apply_unchecked [.memT (.var .P) .apply [.var .S, .var .Pos]]]],
        []⟩]]⟩]

/-- `foldl_start_with_parser.hpp:17-39`
```
template <class P, class StateP, class ForwardOp>
class foldl_start_with_parser
{
private:
  template <class Res>
  struct apply_unchecked :
    foldl<P, typename get_result<Res>::type, ForwardOp>::template apply<
      typename get_remaining<Res>::type,
      typename get_position<Res>::type
    >
  {};
public:
  typedef foldl_start_with_parser type;

  template <class S, class Pos>
  struct apply :
    boost::mpl::eval_if<
      typename is_error<typename StateP::template apply<S, Pos> >::type,
      typename StateP::template apply<S, Pos>,
      apply_unchecked<typename StateP::template apply<S, Pos> >
    >
  {};
};
``` -/
def foldl_start_with_parser : List Spec :=
  [
  ⟨[.var .P, .var .StateP, .var .ForwardOp],
    [],
    [.tmpl .apply_unchecked [
      ⟨[.var .Res],
        [.memT (.cls .foldl [.var .P, .mem (.cls .get_result [.var .Res]) .type, .var .ForwardOp]) .apply [.mem (.cls .get_remaining [.var .Res]) .type, .mem (.cls .get_position [.var .Res]) .type]],
        []⟩],
     .type .type (.self 0),
     .tmpl .apply [
      ⟨[.var .S, .var .Pos],
        [.cls .mpl_eval_if [.mem (.cls .is_error [.memT (.var .StateP) .apply [.var .S, .var .Pos]]) .type, .memT (.var .StateP) .apply [.var .S, .var .Pos], .inner 1 .apply_unchecked [.memT (.var .StateP) .apply [.var .S, .var .Pos]]]],
        []⟩]]⟩]

/-- `foldl_reject_incomplete_start_with_parser.hpp:23-49`
```
template <class P, class StateP, class ForwardOp>
class foldl_reject_incomplete_start_with_parser
{
private:
  template <class Res>
  struct apply_unchecked :
    foldl_reject_incomplete<
      P,
      typename get_result<Res>::type,
      ForwardOp
    >::template apply<
      typename get_remaining<Res>::type,
      typename get_position<Res>::type
    >
  {};
public:
  typedef foldl_reject_incomplete_start_with_parser type;

  template <class S, class Pos>
  struct apply :
    boost::mpl::eval_if<
      typename is_error<typename StateP::template apply<S, Pos> >::type,
      typename StateP::template apply<S, Pos>,
      apply_unchecked<typename StateP::template apply<S, Pos> >
    >
  {};
};
``` -/
def foldl_reject_incomplete_start_with_parser : List Spec :=
  [
  ⟨[.var .P, .var .StateP, .var .ForwardOp],
    [],
    [.tmpl .apply_unchecked [
      ⟨[.var .Res],
        [.memT (.cls .foldl_reject_incomplete [.var .P, .mem (.cls .get_result [.var .Res]) .type, .var .ForwardOp]) .apply [.mem (.cls .get_remaining [.var .Res]) .type, .mem (.cls .get_position [.var .Res]) .type]],
        []⟩],
     .type .type (.self 0),
     .tmpl .apply [
      ⟨[.var .S, .var .Pos],
        [.cls .mpl_eval_if [.mem (.cls .is_error [.memT (.var .StateP) .apply [.var .S, .var .Pos]]) .type, .memT (.var .StateP) .apply [.var .S, .var .Pos], .inner 1 .apply_unchecked [.memT (.var .StateP) .apply [.var .S, .var .Pos]]]],
        []⟩]]⟩]

/-- `foldr_start_with_parser.hpp:23-72`
```
template <class P, class StateP, class BackwardOp>
struct foldr_start_with_parser
{
private:
  template <class Res, class Rem>
  struct apply_unchecked1 :
    accept<
      typename BackwardOp::template apply<
        typename get_result<Rem>::type,
        typename get_result<Res>::type
      >::type,
      typename get_remaining<Rem>::type,
      typename get_position<Rem>::type
    >
  {};

  template <class Res>
  struct apply_unchecked;
public:
  typedef foldr_start_with_parser type;

  template <class S, class Pos>
  struct apply :
    boost::mpl::eval_if<
      typename is_error<typename P::template apply<S, Pos> >::type,
      typename StateP::template apply<S, Pos>,
      apply_unchecked<typename P::template apply<S, Pos> >
    >
  {};
private:
  template <class Res>
  struct apply_unchecked
  {
  private:
    typedef
      typename foldr_start_with_parser::template apply<
        typename get_remaining<Res>::type,
        typename get_position<Res>::type
      >
      parsed_remaining;
  public:
    typedef
      typename boost::mpl::eval_if<
        typename is_error<parsed_remaining>::type,
        parsed_remaining,
        apply_unchecked1<Res, parsed_remaining>
      >::type
      type;
  };
};
``` -/
def foldr_start_with_parser : List Spec :=
  [
  ⟨[.var .P, .var .StateP, .var .BackwardOp],
    [],
    [.tmpl .apply_unchecked1 [
      ⟨[.var .Res, .var .Rem],
        [.cls .accept [.mem (.memT (.var .BackwardOp) .apply [.mem (.cls .get_result [.var .Rem]) .type, .mem (.cls .get_result [.var .Res]) .type]) .type, .mem (.cls .get_remaining [.var .Rem]) .type, .mem (.cls .get_position [.var .Rem]) .type]],
        []⟩],
     .type .type (.self 0),
     .tmpl .apply [
      ⟨[.var .S, .var .Pos],
        [.cls .mpl_eval_if [.mem (.cls .is_error [.memT (.var .P) .apply [.var .S, .var .Pos]]) .type, .memT (.var .StateP) .apply [.var .S, .var .Pos], .inner 1 .apply_unchecked [.memT (.var .P) .apply [.var .S, .var .Pos]]]],
        []⟩],
     .tmpl .apply_unchecked [
      ⟨[.var .Res],
        [],
        [.type .parsed_remaining (.memT (.self 1) .apply [.mem (.cls .get_remaining [.var .Res]) .type, .mem (.cls .get_position [.var .Res]) .type]),
         .type .type (.mem (.cls .mpl_eval_if [.mem (.cls .is_error [.var .parsed_remaining]) .type, .var .parsed_remaining, .inner 1 .apply_unchecked1 [.var .Res, .var .parsed_remaining]]) .type)]⟩]]⟩]

/-- `cpp11/sequence.hpp:29-30`
```
template <>
struct sequence<> : return_<boost::mpl::vector<>> {};
```
`cpp11/sequence.hpp:32-57`
```
template <class P, class... Ps>
struct sequence<P, Ps...>
{
private:
  template <class Res>
  struct apply_unchecked :
    transform<
      sequence<Ps...>,
      impl::push_front_result<Res>
    >::template apply<
      typename get_remaining<Res>::type,
      typename get_position<Res>::type
    >
  {};
public:
  typedef sequence type;

  template <class S, class Pos>
  struct apply :
    boost::mpl::eval_if<
      typename is_error<typename P::template apply<S, Pos>>::type,
      typename P::template apply<S, Pos>,
      apply_unchecked<typename P::template apply<S, Pos>>
    >
  {};
};
``` -/
def sequence : List Spec :=
  [
  ⟨[],
    [.cls .return_ [.cls .mpl_vector []]],
    []⟩,
  ⟨[.var .P, .pack .Ps],
    [],
    [.tmpl .apply_unchecked [
      ⟨[.var .Res],
        [.memT (.cls .transform [.cls .sequence [.spread .Ps], .cls .impl_push_front_result [.var .Res]]) .apply [.mem (.cls .get_remaining [.var .Res]) .type, .mem (.cls .get_position [.var .Res]) .type]],
        []⟩],
     .type .type (.self 0),
     .tmpl .apply [
      ⟨[.var .S, .var .Pos],
        [.cls .mpl_eval_if [.mem (.cls .is_error [.memT (.var .P) .apply [.var .S, .var .Pos]]) .type, .memT (.var .P) .apply [.var .S, .var .Pos], .inner 1 .apply_unchecked [.memT (.var .P) .apply [.var .S, .var .Pos]]]],
        []⟩]]⟩]

/-- `cpp11/one_of.hpp:25-47`
```
template <class P, class... Ps>
struct one_of<P, Ps...>
{
  typedef one_of type;

  template <class S, class Pos>
  struct apply :
    boost::mpl::eval_if<
      typename is_error<typename P::template apply<S, Pos>>::type,
      boost::mpl::eval_if<
        typename is_error<
          typename one_of<Ps...>::template apply<S, Pos>
        >::type,
        impl::eval_later_result<
          typename P::template apply<S, Pos>,
          typename one_of<Ps...>::template apply<S, Pos>
        >,
        typename one_of<Ps...>::template apply<S, Pos>
      >,
      typename P::template apply<S, Pos>
    >
  {};
};
```
`cpp11/one_of.hpp:49-50`
```
template <>
struct one_of<> : fail<error::none_of_the_expected_cases_found> {};
``` -/
def one_of : List Spec :=
  [
  ⟨[.var .P, .pack .Ps],
    [],
    [.type .type (.self 0),
     .tmpl .apply [
      ⟨[.var .S, .var .Pos],
        [.cls .mpl_eval_if [.mem (.cls .is_error [.memT (.var .P) .apply [.var .S, .var .Pos]]) .type, .cls .mpl_eval_if [.mem (.cls .is_error [.memT (.cls .one_of [.spread .Ps]) .apply [.var .S, .var .Pos]]) .type, .cls .impl_eval_later_result [.memT (.var .P) .apply [.var .S, .var .Pos], .memT (.cls .one_of [.spread .Ps]) .apply [.var .S, .var .Pos]], .memT (.cls .one_of [.spread .Ps]) .apply [.var .S, .var .Pos]], .memT (.var .P) .apply [.var .S, .var .Pos]]],
        []⟩]]⟩,
  ⟨[],
    [.cls .fail [.cls .error_none_of_the_expected_cases_found []]],
    []⟩]

/-- `cpp11/impl/nth_of_c_skip_remaining.hpp:27-30`
```
template <class FinalResult, class S, class Pos>
struct nth_of_c_skip_remaining<FinalResult, S, Pos> :
  return_<FinalResult>::template apply<S, Pos>
{};
```
`cpp11/impl/nth_of_c_skip_remaining.hpp:32-53`
```
template <class FinalResult, class S, class Pos, class P, class... Ps>
struct nth_of_c_skip_remaining<FinalResult, S, Pos, P, Ps...>
{
private:
  template <class NextResult>
  struct apply_unchecked :
    nth_of_c_skip_remaining<
      FinalResult,
      typename get_remaining<NextResult>::type,
      typename get_position<NextResult>::type,
      Ps...
    >
  {};
public:
  typedef
    typename std::conditional<
      is_error<typename P::template apply<S, Pos>>::type::value,
      typename P::template apply<S, Pos>,
      apply_unchecked<typename P::template apply<S, Pos>>
    >::type::type
    type;
};
``` -/
def impl_nth_of_c_skip_remaining : List Spec :=
  [
  ⟨[.var .FinalResult, .var .S, .var .Pos],
    [.memT (.cls .return_ [.var .FinalResult]) .apply [.var .S, .var .Pos]],
    []⟩,
  ⟨[.var .FinalResult, .var .S, .var .Pos, .var .P, .pack .Ps],
    [],
    [.tmpl .apply_unchecked [
      ⟨[.var .NextResult],
        [.cls .impl_nth_of_c_skip_remaining [.var .FinalResult, .mem (.cls .get_remaining [.var .NextResult]) .type, .mem (.cls .get_position [.var .NextResult]) .type, .spread .Ps]],
        []⟩],
     .type .type (.mem (.mem (.cls .std_conditional [.mem (.mem (.cls .is_error [.memT (.var .P) .apply [.var .S, .var .Pos]]) .type) .value, .memT (.var .P) .apply [.var .S, .var .Pos], .inner 0 .apply_unchecked [.memT (.var .P) .apply [.var .S, .var .Pos]]]) .type) .type)]⟩]

/-- `cpp11/impl/nth_of_c.hpp:29-51`
```
template <int N, class S, class Pos, class P, class... Ps>
struct nth_of_c<N, S, Pos, P, Ps...>
{
private:
  template <class NextResult>
  struct apply_unchecked :
    nth_of_c<
      N - 1,
      typename get_remaining<NextResult>::type,
      typename get_position<NextResult>::type,
      Ps...
    >
  {};

public:
  typedef
    typename std::conditional<
      is_error<typename P::template apply<S, Pos>>::type::value,
      typename P::template apply<S, Pos>,
      apply_unchecked<typename P::template apply<S, Pos>>
    >::type::type
    type;
};
```
`cpp11/impl/nth_of_c.hpp:53-75`
```
template <class P, class S, class Pos, class... Ps>
struct nth_of_c<0, S, Pos, P, Ps...>
{
private:
  template <class NextResult>
  struct apply_unchecked :
    nth_of_c_skip_remaining<
      typename get_result<NextResult>::type,
      typename get_remaining<NextResult>::type,
      typename get_position<NextResult>::type,
      Ps...
    >
  {};

public:
  typedef
    typename std::conditional<
      is_error<typename P::template apply<S, Pos>>::type::value,
      typename P::template apply<S, Pos>,
      apply_unchecked<typename P::template apply<S, Pos>>
    >::type::type
    type;
};
``` -/
def impl_nth_of_c : List Spec :=
  [
  ⟨[.num 0, .var .S, .var .Pos, .var .P, .pack .Ps],
    [],
    [.tmpl .apply_unchecked [
      ⟨[.var .NextResult],
        [.cls .impl_nth_of_c_skip_remaining [.mem (.cls .get_result [.var .NextResult]) .type, .mem (.cls .get_remaining [.var .NextResult]) .type, .mem (.cls .get_position [.var .NextResult]) .type, .spread .Ps]],
        []⟩],
     .type .type (.mem (.mem (.cls .std_conditional [.mem (.mem (.cls .is_error [.memT (.var .P) .apply [.var .S, .var .Pos]]) .type) .value, .memT (.var .P) .apply [.var .S, .var .Pos], .inner 0 .apply_unchecked [.memT (.var .P) .apply [.var .S, .var .Pos]]]) .type) .type)]⟩,
  ⟨[.var .N, .var .S, .var .Pos, .var .P, .pack .Ps],
    [],
    [.tmpl .apply_unchecked [
      ⟨[.var .NextResult],
        [.cls .impl_nth_of_c [.op .sub (.var .N) (.num 1), .mem (.cls .get_remaining [.var .NextResult]) .type, .mem (.cls .get_position [.var .NextResult]) .type, .spread .Ps]],
        []⟩],
     .type .type (.mem (.mem (.cls .std_conditional [.mem (.mem (.cls .is_error [.memT (.var .P) .apply [.var .S, .var .Pos]]) .type) .value, .memT (.var .P) .apply [.var .S, .var .Pos], .inner 0 .apply_unchecked [.memT (.var .P) .apply [.var .S, .var .Pos]]]) .type) .type)]⟩]

/-- `cpp11/nth_of_c.hpp:22-36`
```
template <int N, class... Ps>
struct nth_of_c
{
  typedef nth_of_c type;

  template <class S, class Pos>
  struct apply :
    std::conditional<
      (0 <= N && N < sizeof...(Ps)),
      impl::nth_of_c<N, S, Pos, Ps...>,
      typename fail<error::index_out_of_range<0, sizeof...(Ps) - 1, N>>
        ::template apply<S, Pos>
    >::type
  {};
};
```
`cpp11/nth_of_c.hpp:38-39`
```
template <int N>
struct nth_of_c<N> : fail<error::index_out_of_range<0, -1, N>> {};
``` -/
def nth_of_c : List Spec :=
  [
  ⟨[.var .N],
    [.cls .fail [.cls .error_index_out_of_range [.num 0, .num (-1), .var .N]]],
    []⟩,
  ⟨[.var .N, .pack .Ps],
    [],
    [.type .type (.self 0),
     .tmpl .apply [
      ⟨[.var .S, .var .Pos],
        [.mem (.cls .std_conditional [.op .and (.op .le (.num 0) (.var .N)) (.op .lt (.var .N) (.size .Ps)), .cls .impl_nth_of_c [.var .N, .var .S, .var .Pos, .spread .Ps], .memT (.cls .fail [.cls .error_index_out_of_range [.num 0, .op .sub (.size .Ps) (.num 1), .var .N]]) .apply [.var .S, .var .Pos]]) .type],
        []⟩]]⟩]

/-- `cpp11/nth_of.hpp:17-18`
```
template <class K, class... Ps>
struct nth_of : nth_of_c<K::type::value, Ps...> {};
``` -/
def nth_of : List Spec :=
  [
  ⟨[.var .K, .pack .Ps],
    [.cls .nth_of_c [.mem (.mem (.var .K) .type) .value, .spread .Ps]],
    []⟩]

/-- `cpp11/first_of.hpp:20-27`
```
template <class... Ps>
struct first_of
{
  typedef first_of type;

  template <class S, class Pos>
  struct apply : impl::nth_of_c<0, S, Pos, Ps...> {};
};
```
`cpp11/first_of.hpp:29-30`
```
template <>
struct first_of<> : fail<error::index_out_of_range<0, -1, 0>> {};
``` -/
def first_of : List Spec :=
  [
  ⟨[],
    [.cls .fail [.cls .error_index_out_of_range [.num 0, .num (-1), .num 0]]],
    []⟩,
  ⟨[.pack .Ps],
    [],
    [.type .type (.self 0),
     .tmpl .apply [
      ⟨[.var .S, .var .Pos],
        [.cls .impl_nth_of_c [.num 0, .var .S, .var .Pos, .spread .Ps]],
        []⟩]]⟩]

/-- `cpp11/last_of.hpp:20-27`
```
template <class... Ps>
struct last_of
{
  typedef last_of type;

  template <class S, class Pos>
  struct apply : impl::nth_of_c<sizeof...(Ps) - 1, S, Pos, Ps...> {};
};
```
`cpp11/last_of.hpp:29-30`
```
template <>
struct last_of<> : fail<error::index_out_of_range<0, -1, 0>> {};
``` -/
def last_of : List Spec :=
  [
  ⟨[],
    [.cls .fail [.cls .error_index_out_of_range [.num 0, .num (-1), .num 0]]],
    []⟩,
  ⟨[.pack .Ps],
    [],
    [.type .type (.self 0),
     .tmpl .apply [
      ⟨[.var .S, .var .Pos],
        [.cls .impl_nth_of_c [.op .sub (.size .Ps) (.num 1), .var .S, .var .Pos, .spread .Ps]],
        []⟩]]⟩]

/-- `middle_of.hpp:22-42`
```
template <class P1, class P2, class P3>
struct middle_of
{
  typedef middle_of type;

  template <class S, class Pos>
  struct apply :
    nth_of_c<
      1,
      P1,
      P2,
      transform_error_message<
        P3,
        error::unpaired<
          get_line<Pos>::type::value,
          get_col<Pos>::type::value
        >
      >
    >::template apply<S, Pos>
  {};
};
``` -/
def middle_of : List Spec :=
  [
  ⟨[.var .P1, .var .P2, .var .P3],
    [],
    [.type .type (.self 0),
     .tmpl .apply [
      ⟨[.var .S, .var .Pos],
        [.memT (.padded .nth_of_c [.num 1, .var .P1, .var .P2, .cls .transform_error_message [.var .P3, .cls .error_unpaired [.mem (.mem (.cls .get_line [.var .Pos]) .type) .value, .mem (.mem (.cls .get_col [.var .Pos]) .type) .value, .cls .mpl_na []]]]) .apply [.var .S, .var .Pos]],
        []⟩]]⟩]

/-- `impl/iterate_impl_unchecked.hpp:24-37`
```
template <int N, class P, class Accum, class S, class Pos>
struct iterate_impl_unchecked :
  iterate_impl<
    N - 1,
    P,
    typename boost::mpl::push_back<
      Accum,
      typename get_result<typename P::template apply<S, Pos> >::type
    >::type
  >::template apply<
    typename get_remaining<typename P::template apply<S, Pos> >::type,
    typename get_position<typename P::template apply<S, Pos> >::type
  >
{};
``` -/
def impl_iterate_impl_unchecked : List Spec :=
  [
  ⟨[.var .N, .var .P, .var .Accum, .var .S, .var .Pos],
    [.memT (.cls .impl_iterate_impl [.op .sub (.var .N) (.num 1), .var .P, .mem (.cls .mpl_push_back [.var .Accum, .mem (.cls .get_result [.memT (.var .P) .apply [.var .S, .var .Pos]]) .type]) .type]) .apply [.mem (.cls .get_remaining [.memT (.var .P) .apply [.var .S, .var .Pos]]) .type, .mem (.cls .get_position [.memT (.var .P) .apply [.var .S, .var .Pos]]) .type]],
    []⟩]

/-- `impl/iterate_impl.hpp:23-36`
```
template <int N, class P, class Accum>
struct iterate_impl
{
  typedef iterate_impl type;

  template <class S, class Pos>
  struct apply :
    boost::mpl::eval_if<
      typename is_error<typename P::template apply<S, Pos> >::type,
      typename P::template apply<S, Pos>,
      iterate_impl_unchecked<N, P, Accum, S, Pos>
    >
  {};
};
```
`impl/iterate_impl.hpp:38-39`
```
template <class P, class Accum>
struct iterate_impl<0, P, Accum> : return_<Accum> {};
``` -/
def impl_iterate_impl : List Spec :=
  [
  ⟨[.num 0, .var .P, .var .Accum],
    [.cls .return_ [.var .Accum]],
    []⟩,
  ⟨[.var .N, .var .P, .var .Accum],
    [],
    [.type .type (.self 0),
     .tmpl .apply [
      ⟨[.var .S, .var .Pos],
        [.cls .mpl_eval_if [.mem (.cls .is_error [.memT (.var .P) .apply [.var .S, .var .Pos]]) .type, .memT (.var .P) .apply [.var .S, .var .Pos], .cls .impl_iterate_impl_unchecked [.var .N, .var .P, .var .Accum, .var .S, .var .Pos]]],
        []⟩]]⟩]

/-- `iterate_c.hpp:19-20`
```
template <class P, int N>
struct iterate_c : impl::iterate_impl<N, P, boost::mpl::deque<> > {};
``` -/
def iterate_c : List Spec :=
  [
  ⟨[.var .P, .var .N],
    [.cls .impl_iterate_impl [.var .N, .var .P, .cls .mpl_vector []]],
    []⟩]

/-- `iterate.hpp:17-18`
```
template <class P, class N>
struct iterate : iterate_c<P, N::type::value> {};
``` -/
def iterate : List Spec :=
  [
  ⟨[.var .P, .var .N],
    [.cls .iterate_c [.var .P, .mem (.mem (.var .N) .type) .value]],
    []⟩]

/-- `lit_c.hpp:21-28`
```
template <char C>
struct lit_c :
  accept_when<
    change_error_message<one_char, error::literal_expected<C> >,
    impl::is_char_c<C>,
    error::literal_expected<C>
  >
{};
``` -/
def lit_c : List Spec :=
  [
  ⟨[.var .C],
    [.cls .accept_when [.cls .change_error_message [.cls .one_char [], .cls .error_literal_expected [.var .C]], .cls .impl_is_char_c [.var .C], .cls .error_literal_expected [.var .C]]],
    []⟩]

/-- `lit.hpp:17-18`
```
template <class C>
struct lit : lit_c<C::type::value> {};
``` -/
def lit : List Spec :=
  [
  ⟨[.var .C],
    [.cls .lit_c [.mem (.mem (.var .C) .type) .value]],
    []⟩]

/-- `keyword.hpp:29-76`
```
template <class Kw, class ResultType = impl::void_>
struct keyword
{
private:
  struct nonempty
  {
  private:
    typedef lit<typename boost::mpl::front<Kw>::type> next_char_parser;

    typedef
      keyword<typename boost::mpl::pop_front<Kw>::type, ResultType>
      rest_parser;

    template <class S, class Pos>
    struct apply_unchecked :
      rest_parser::template apply<
        typename get_remaining<
          typename next_char_parser::template apply<S, Pos>
        >::type,
        typename get_position<
          typename next_char_parser::template apply<S, Pos>
        >::type
      >
    {};
  public:
    template <class S, class Pos>
    struct apply :
      boost::mpl::eval_if<
        typename is_error<
          typename next_char_parser::template apply<S, Pos>
        >::type,
        typename next_char_parser::template apply<S, Pos>,
        apply_unchecked<S, Pos>
      >
    {};
  };
public:
  typedef keyword type;

  template <class S, class Pos>
  struct apply :
    boost::mpl::if_<
      boost::mpl::empty<Kw>,
      return_<ResultType>,
      nonempty
    >::type::template apply<S, Pos>
  {};
};
``` -/
def keyword : List Spec :=
  [
  ⟨[.var .Kw, .var .ResultType],
    [],
    [.tmpl .nonempty [
      ⟨[],
        [],
        [.type .next_char_parser (.cls .lit [.mem (.cls .mpl_front [.var .Kw]) .type]),
         .type .rest_parser (.cls .keyword [.mem (.cls .mpl_pop_front [.var .Kw]) .type, .var .ResultType]),
         .tmpl .apply_unchecked [
          ⟨[.var .S, .var .Pos],
            [.memT (.cls .keyword [.mem (.cls .mpl_pop_front [.var .Kw]) .type, .var .ResultType]) .apply [.mem (.cls .get_remaining [.memT (.cls .lit [.mem (.cls .mpl_front [.var .Kw]) .type]) .apply [.var .S, .var .Pos]]) .type, .mem (.cls .get_position [.memT (.cls .lit [.mem (.cls .mpl_front [.var .Kw]) .type]) .apply [.var .S, .var .Pos]]) .type]],
            []⟩],
         .tmpl .apply [
          ⟨[.var .S, .var .Pos],
            [.cls .mpl_eval_if [.mem (.cls .is_error [.memT (.cls .lit [.mem (.cls .mpl_front [.var .Kw]) .type]) .apply [.var .S, .var .Pos]]) .type, .memT (.cls .lit [.mem (.cls .mpl_front [.var .Kw]) .type]) .apply [.var .S, .var .Pos], .inner 1 .apply_unchecked [.var .S, .var .Pos]]],
            []⟩]]⟩],
     .type .type (.self 0),
     .tmpl .apply [
      ⟨[.var .S, .var .Pos],
        [.memT (.mem (.cls .mpl_if_ [.cls .mpl_empty [.var .Kw], .cls .return_ [.var .ResultType], .inner 1 .nonempty []]) .type) .apply [.var .S, .var .Pos]],
        []⟩]]⟩]

/-- `cpp11/one_of_c.hpp:22-29`
```
template <char... Cs>
struct one_of_c :
  accept_when<
    one_char,
    impl::any_of_c<Cs...>,
    error::none_of_the_expected_cases_found
  >
{};
``` -/
def one_of_c : List Spec :=
  [
  ⟨[.pack .Cs],
    [.cls .accept_when [.cls .one_char [], .cls .impl_any_of_c [.spread .Cs], .cls .error_none_of_the_expected_cases_found []]],
    []⟩]

/-- `cpp11/one_char_except_c.hpp:20-27`
```
template <char... Cs>
struct one_char_except_c :
  accept_when<
    one_char,
    impl::is_none_c<Cs...>,
    error::unexpected_character
  >
{};
``` -/
def one_char_except_c : List Spec :=
  [
  ⟨[.pack .Cs],
    [.cls .accept_when [.cls .one_char [], .cls .impl_is_none_c [.spread .Cs], .cls .error_unexpected_character []]],
    []⟩]

/-- `cpp11/one_char_except.hpp:20-27`
```
template <class... Cs>
struct one_char_except :
  accept_when<
    one_char,
    impl::is_none_c<Cs::type::value...>,
    error::unexpected_character
  >
{};
``` -/
def one_char_except : List Spec :=
  [
  ⟨[.pack .Cs],
    [.cls .accept_when [.cls .one_char [], .cls .impl_is_none_c [.each .Cs (.mem (.mem (.var .Cs) .type) .value)], .cls .error_unexpected_character []]],
    []⟩]

/-- `range_c.hpp:20-27`
```
template <char From, char To>
struct range_c :
  accept_when<
    one_char,
    util::in_range_c<char, From, To>,
    error::unexpected_character
  >
{};
``` -/
def range_c : List Spec :=
  [
  ⟨[.var .From, .var .To],
    [.cls .accept_when [.cls .one_char [], .cls .util_in_range_c [.cls .t_char [], .var .From, .var .To], .cls .error_unexpected_character []]],
    []⟩]

/-- `range.hpp:20-27`
```
template <class From, class To>
struct range :
  accept_when<
    one_char,
    util::in_range_c<char, From::type::value, To::type::value>,
    error::unexpected_character
  >
{};
``` -/
def range : List Spec :=
  [
  ⟨[.var .From, .var .To],
    [.cls .accept_when [.cls .one_char [], .cls .util_in_range_c [.cls .t_char [], .mem (.mem (.var .From) .type) .value, .mem (.mem (.var .To) .type) .value], .cls .error_unexpected_character []]],
    []⟩]

/-- `foldl1.hpp:19-32`
```
template <class P, class State, class ForwardOp>
struct foldl1
{
  typedef foldl1 type;

  template <class S, class Pos>
  struct apply :
    boost::mpl::if_<
      is_error<typename P::template apply<S, Pos> >,
      P,
      foldl<P, State, ForwardOp>
    >::type::template apply<S, Pos>
  {};
};
``` -/
def foldl1 : List Spec :=
  [
  ⟨[.var .P, .var .State, .var .ForwardOp],
    [],
    [.type .type (.self 0),
     .tmpl .apply [
      ⟨[.var .S, .var .Pos],
        [.memT (.mem (.cls .mpl_if_ [.cls .is_error [.memT (.var .P) .apply [.var .S, .var .Pos]], .var .P, .cls .foldl [.var .P, .var .State, .var .ForwardOp]]) .type) .apply [.var .S, .var .Pos]],
        []⟩]]⟩]

/-- `foldr.hpp:18-19`
```
template <class P, class State, class BackwardOp>
struct foldr : foldr_start_with_parser<P, return_<State>, BackwardOp> {};
``` -/
def foldr : List Spec :=
  [
  ⟨[.var .P, .var .State, .var .BackwardOp],
    [.cls .foldr_start_with_parser [.var .P, .cls .return_ [.var .State], .var .BackwardOp]],
    []⟩]

/-- `foldr1.hpp:19-32`
```
template <class P, class State, class BackwardOp>
struct foldr1
{
  typedef foldr1 type;

  template <class S, class Pos>
  struct apply :
    boost::mpl::if_<
      is_error<typename P::template apply<S, Pos> >,
      P,
      foldr<P, State, BackwardOp>
    >::type::template apply<S, Pos>
  {};
};
``` -/
def foldr1 : List Spec :=
  [
  ⟨[.var .P, .var .State, .var .BackwardOp],
    [],
    [.type .type (.self 0),
     .tmpl .apply [
      ⟨[.var .S, .var .Pos],
        [.memT (.mem (.cls .mpl_if_ [.cls .is_error [.memT (.var .P) .apply [.var .S, .var .Pos]], .var .P, .cls .foldr [.var .P, .var .State, .var .BackwardOp]]) .type) .apply [.var .S, .var .Pos]],
        []⟩]]⟩]

/-- `foldl_reject_incomplete1.hpp:19-32`
```
template <class P, class State, class ForwardOp>
struct foldl_reject_incomplete1
{
  typedef foldl_reject_incomplete1 type;

  template <class S, class Pos>
  struct apply :
    boost::mpl::if_<
      is_error<typename P::template apply<S, Pos> >,
      P,
      foldl_reject_incomplete<P, State, ForwardOp>
    >::type::template apply<S, Pos>
  {};
};
``` -/
def foldl_reject_incomplete1 : List Spec :=
  [
  ⟨[.var .P, .var .State, .var .ForwardOp],
    [],
    [.type .type (.self 0),
     .tmpl .apply [
      ⟨[.var .S, .var .Pos],
        [.memT (.mem (.cls .mpl_if_ [.cls .is_error [.memT (.var .P) .apply [.var .S, .var .Pos]], .var .P, .cls .foldl_reject_incomplete [.var .P, .var .State, .var .ForwardOp]]) .type) .apply [.var .S, .var .Pos]],
        []⟩]]⟩]

/-- `foldr_reject_incomplete.hpp:20-27`
```
template <class P, class State, class BackwardOp>
struct foldr_reject_incomplete :
  foldr_start_with_parser<
    P,
    first_of<return_<State>, fail_at_first_char_expected<P> >,
    BackwardOp
  >
{};
``` -/
def foldr_reject_incomplete : List Spec :=
  [
  ⟨[.var .P, .var .State, .var .BackwardOp],
    [.cls .foldr_start_with_parser [.var .P, .padded .first_of [.cls .return_ [.var .State], .cls .fail_at_first_char_expected [.var .P]], .var .BackwardOp]],
    []⟩]

/-- `foldr_reject_incomplete1.hpp:19-32`
```
template <class P, class State, class BackwardOp>
struct foldr_reject_incomplete1
{
  typedef foldr_reject_incomplete1 type;

  template <class S, class Pos>
  struct apply :
    boost::mpl::if_<
      is_error<typename P::template apply<S, Pos> >,
      P,
      foldr_reject_incomplete<P, State, BackwardOp>
    >::type::template apply<S, Pos>
  {};
};
``` -/
def foldr_reject_incomplete1 : List Spec :=
  [
  ⟨[.var .P, .var .State, .var .BackwardOp],
    [],
    [.type .type (.self 0),
     .tmpl .apply [
      ⟨[.var .S, .var .Pos],
        [.memT (.mem (.cls .mpl_if_ [.cls .is_error [.memT (.var .P) .apply [.var .S, .var .Pos]], .var .P, .cls .foldr_reject_incomplete [.var .P, .var .State, .var .BackwardOp]]) .type) .apply [.var .S, .var .Pos]],
        []⟩]]⟩]

/-- `repeated.hpp:20-21`
```
template <class P>
struct repeated : foldl<P, boost::mpl::vector<>, impl::back_inserter> {};
``` -/
def repeated : List Spec :=
  [
  ⟨[.var .P],
    [.cls .foldl [.var .P, .cls .mpl_vector [], .cls .impl_back_inserter []]],
    []⟩]

/-- `repeated1.hpp:20-23`
```
template <class P>
struct repeated1 :
  foldl1<P, boost::mpl::vector<>, impl::back_inserter>
{};
``` -/
def repeated1 : List Spec :=
  [
  ⟨[.var .P],
    [.cls .foldl1 [.var .P, .cls .mpl_vector [], .cls .impl_back_inserter []]],
    []⟩]

/-- `repeated_reject_incomplete.hpp:20-23`
```
template <class P>
struct repeated_reject_incomplete :
  foldl_reject_incomplete<P, boost::mpl::vector<>, impl::back_inserter>
{};
``` -/
def repeated_reject_incomplete : List Spec :=
  [
  ⟨[.var .P],
    [.cls .foldl_reject_incomplete [.var .P, .cls .mpl_vector [], .cls .impl_back_inserter []]],
    []⟩]

/-- `repeated_reject_incomplete1.hpp:20-23`
```
template <class P>
struct repeated_reject_incomplete1 :
  foldl_reject_incomplete1<P, boost::mpl::vector<>, impl::back_inserter>
{};
``` -/
def repeated_reject_incomplete1 : List Spec :=
  [
  ⟨[.var .P],
    [.cls .foldl_reject_incomplete1 [.var .P, .cls .mpl_vector [], .cls .impl_back_inserter []]],
    []⟩]

/-- `token.hpp:21-22`
```
template <class P>
struct token : first_of<P, repeated<space> > {};
``` -/
def token : List Spec :=
  [
  ⟨[.var .P],
    [.padded .first_of [.var .P, .cls .repeated [.cls .accept_when [.cls .one_char [], .cls .util_is_whitespace [.cls .mpl_na []], .cls .error_whitespace_expected []]]]],
    []⟩]

/-- `entire_input.hpp:19-22`
```
template <class P, class Msg = error::end_of_input_expected>
struct entire_input :
  first_of<P, change_error_message<empty<void>, Msg> >
{};
```
`entire_input.hpp:24-27`
```
template <class P>
struct entire_input<P, error::end_of_input_expected> :
  first_of<P, empty<void> >
{};
``` -/
def entire_input : List Spec :=
  [
  ⟨[.var .P, .cls .error_end_of_input_expected []],
    [.padded .first_of [.var .P, .cls .empty [.cls .t_void []]]],
    []⟩,
  ⟨[.var .P, .var .Msg],
    [.padded .first_of [.var .P, .cls .change_error_message [.cls .empty [.cls .t_void []], .var .Msg]]],
    []⟩]

/-- `always_c.hpp:18-19`
```
template <char C, class Result>
struct always_c : always<lit_c<C>, Result> {};
``` -/
def always_c : List Spec :=
  [
  ⟨[.var .C, .var .Result],
    [.cls .always [.cls .lit_c [.var .C], .var .Result]],
    []⟩]

/-- `swap.hpp:15-22`
```
template <class F>
struct swap
{
  typedef swap type;

  template <class A, class B>
  struct apply : F::template apply<B, A> {};
};
``` -/
def swap : List Spec :=
  [
  ⟨[.var .F],
    [],
    [.type .type (.self 0),
     .tmpl .apply [
      ⟨[.var .A, .var .B],
        [.memT (.var .F) .apply [.var .B, .var .A]],
        []⟩]]⟩]

/-- `sequence_apply.hpp:40-52`
```
template < \
  template <BOOST_PP_ENUM(n, class BOOST_PP_TUPLE_EAT(3), ~)> class T \
> \
struct BOOST_PP_CAT(sequence_apply_transform, n) \
{ \
  typedef BOOST_PP_CAT(sequence_apply_transform, n) type; \
  \
  template <class V> \
  struct apply \
  { \
    typedef T<BOOST_PP_ENUM(n, BOOST_METAPARSE_SEQUENCE_APPLY_ARG, V)> type; \
  }; \
}; \
``` -/
def impl_sequence_apply_transform_n : List Spec :=
  ((List.range' 1 (5 - 1)).map fun (n : Nat) => (
  ⟨[.num n, .var .T],
    [],
    [.type .type (.self 0),
     .tmpl .apply [
      ⟨[.var .V],
        [],
        [.type .type (.cls .user_value ([.var .T] ++ ((List.range n).map fun (i : Nat) => .mem (.cls .mpl_at_c [.var .V, .num i]) .type)))]⟩]]⟩ : Spec))

/-- `sequence_apply.hpp:55-64`
```
template < \
  template <BOOST_PP_ENUM(n, class BOOST_PP_TUPLE_EAT(3), ~)> class T, \
  BOOST_PP_ENUM_PARAMS(n, class P) \
> \
struct BOOST_PP_CAT(sequence_apply, n) : \
  transform< \
    sequence<BOOST_PP_ENUM_PARAMS(n, P)>, \
    BOOST_PP_CAT(impl::sequence_apply_transform, n)<T> \
  > \
{};
``` -/
def sequence_apply_n : List Spec :=
  ((List.range' 1 (5 - 1)).map fun (n : Nat) => (
  ⟨[.num n, .var .T, .params .P n],
    [.cls .transform [.padded .sequence (((List.range n).map fun (i : Nat) => .nth .P i)), .cls .impl_sequence_apply_transform_n [.num n, .var .T]]],
    []⟩ : Spec))

/-- `build_parser.hpp:28-32`
```
template <int Line, int Col, class Msg>
struct x__________________PARSING_FAILED__________________x
{
  BOOST_STATIC_ASSERT(Line == Line + 1);
};
``` -/
def x__________________PARSING_FAILED__________________x : List Spec :=
  [
  ⟨[.var .Line, .var .Col, .var .Msg],
    [],
    [.assert (.op .eq (.var .Line) (.op .add (.var .Line) (.num 1)))]⟩]

/-- `build_parser.hpp:34-45`
```
template <class P, class S>
struct parsing_failed :
  x__________________PARSING_FAILED__________________x<
    get_line<
      get_position<typename P::template apply<S, start> >
    >::type::value,
    get_col<
      get_position<typename P::template apply<S, start> >
    >::type::value,
    typename get_message<typename P::template apply<S, start> >::type
  >
{};
``` -/
def parsing_failed : List Spec :=
  [
  ⟨[.var .P, .var .S],
    [.cls .x__________________PARSING_FAILED__________________x [.mem (.mem (.cls .get_line [.cls .get_position [.memT (.var .P) .apply [.var .S, .cls .source_position [.cls .mpl_int_ [.num 1], .cls .mpl_int_ [.num 1], .cls .mpl_char_ [.num 0]]]]]) .type) .value, .mem (.mem (.cls .get_col [.cls .get_position [.memT (.var .P) .apply [.var .S, .cls .source_position [.cls .mpl_int_ [.num 1], .cls .mpl_int_ [.num 1], .cls .mpl_char_ [.num 0]]]]]) .type) .value, .mem (.cls .get_message [.memT (.var .P) .apply [.var .S, .cls .source_position [.cls .mpl_int_ [.num 1], .cls .mpl_int_ [.num 1], .cls .mpl_char_ [.num 0]]]]) .type]],
    []⟩]

/-- `build_parser.hpp:47-60`
```
template <class P>
struct build_parser
{
  typedef build_parser type;

  template <class S>
  struct apply :
    boost::mpl::eval_if<
      typename is_error<typename P::template apply<S, start> >::type,
      parsing_failed<P, S>,
      get_result<typename P::template apply<S, start> >
    >
  {};
};
``` -/
def build_parser : List Spec :=
  [
  ⟨[.var .P],
    [],
    [.type .type (.self 0),
     .tmpl .apply [
      ⟨[.var .S],
        [.cls .mpl_eval_if [.mem (.cls .is_error [.memT (.var .P) .apply [.var .S, .cls .source_position [.cls .mpl_int_ [.num 1], .cls .mpl_int_ [.num 1], .cls .mpl_char_ [.num 0]]]]) .type, .cls .parsing_failed [.var .P, .var .S], .cls .get_result [.memT (.var .P) .apply [.var .S, .cls .source_position [.cls .mpl_int_ [.num 1], .cls .mpl_int_ [.num 1], .cls .mpl_char_ [.num 0]]]]]],
        []⟩]]⟩]

/-- `digit.hpp:22-28` -/
def alias_digit : Tm :=
  .cls .accept_when [.cls .change_error_message [.cls .one_char [], .cls .error_digit_expected []], .cls .util_is_digit [.cls .mpl_na []], .cls .error_digit_expected []]

/-- `digit_val.hpp:20-20` -/
def alias_digit_val : Tm :=
  .cls .transform [.cls .accept_when [.cls .change_error_message [.cls .one_char [], .cls .error_digit_expected []], .cls .util_is_digit [.cls .mpl_na []], .cls .error_digit_expected []], .cls .util_digit_to_int [.cls .mpl_na []]]

/-- `letter.hpp:21-23` -/
def alias_letter : Tm :=
  .cls .accept_when [.cls .one_char [], .cls .util_is_letter [.cls .mpl_na []], .cls .error_letter_expected []]

/-- `space.hpp:21-23` -/
def alias_space : Tm :=
  .cls .accept_when [.cls .one_char [], .cls .util_is_whitespace [.cls .mpl_na []], .cls .error_whitespace_expected []]

/-- `cpp11/repeated_one_of.hpp:18-19` -/
def alias_repeated_one_of : Tm :=
  .cls .repeated [.cls .one_of [.spread .Ps]]

/-- `cpp11/repeated_one_of1.hpp:18-19` -/
def alias_repeated_one_of1 : Tm :=
  .cls .repeated1 [.cls .one_of [.spread .Ps]]

/-- `int_.hpp:19-19` -/
def alias_int_ : Tm :=
  .cls .foldl1 [.cls .transform [.cls .accept_when [.cls .change_error_message [.cls .one_char [], .cls .error_digit_expected []], .cls .util_is_digit [.cls .mpl_na []], .cls .error_digit_expected []], .cls .util_digit_to_int [.cls .mpl_na []]], .cls .mpl_int_ [.num 0], .cls .impl_next_digit []]

/-- `spaces.hpp:18-18` -/
def alias_spaces : Tm :=
  .cls .repeated1 [.cls .accept_when [.cls .one_char [], .cls .util_is_whitespace [.cls .mpl_na []], .cls .error_whitespace_expected []]]

/-- `alphanum.hpp:19-19` -/
def alias_alphanum : Tm :=
  .padded .one_of [.cls .accept_when [.cls .one_char [], .cls .util_is_letter [.cls .mpl_na []], .cls .error_letter_expected []], .cls .accept_when [.cls .change_error_message [.cls .one_char [], .cls .error_digit_expected []], .cls .util_is_digit [.cls .mpl_na []], .cls .error_digit_expected []]]

end Metaparse.Tmpl.Hdr

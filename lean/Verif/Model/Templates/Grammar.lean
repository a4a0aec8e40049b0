import Verif.Model.Templates.Syntax
/-!
# The headers, translated: `grammar`

Translated by `/verif/translate/translate.py` from `/repo/include/boost/metaparse/v1/grammar.hpp`.
-/

namespace Metaparse.Tmpl.Hdr

/-- `grammar.hpp:59-68`
```
template <char Op, class FState>
struct repeated_apply_impl
{
  typedef repeated_apply_impl type;

  template <class G>
  struct apply :
    repeated<typename FState::template apply<G>::type>
  {};
};
```
`grammar.hpp:70-79`
```
template <class FState>
struct repeated_apply_impl<'+', FState>
{
  typedef repeated_apply_impl type;

  template <class G>
  struct apply :
    repeated1<typename FState::template apply<G>::type>
  {};
};
``` -/
def grammar_util_repeated_apply_impl : List Spec :=
  [
  ⟨[.num 43, .var .FState],
    [],
    [.type .type (.self 0),
     .tmpl .apply [
      ⟨[.var .G],
        [.cls .repeated1 [.mem (.memT (.var .FState) .apply [.var .G]) .type]],
        []⟩]]⟩,
  ⟨[.var .Op, .var .FState],
    [],
    [.type .type (.self 0),
     .tmpl .apply [
      ⟨[.var .G],
        [.cls .repeated [.mem (.memT (.var .FState) .apply [.var .G]) .type]],
        []⟩]]⟩]

/-- `grammar.hpp:81-87`
```
struct build_repeated
{
  typedef build_repeated type;

  template <class FState, class T>
  struct apply : repeated_apply_impl<T::type::value, FState> {};
};
``` -/
def grammar_util_build_repeated : List Spec :=
  [
  ⟨[],
    [],
    [.type .type (.self 0),
     .tmpl .apply [
      ⟨[.var .FState, .var .T],
        [.cls .grammar_util_repeated_apply_impl [.mem (.mem (.var .T) .type) .value, .var .FState]],
        []⟩]]⟩]

/-- `grammar.hpp:89-109`
```
struct build_sequence
{
  typedef build_sequence type;

  template <class FState, class FP>
  struct apply_impl
  {
    typedef apply_impl type;

    template <class G>
    struct apply :
      sequence<
        typename FState::template apply<G>::type,
        typename FP::template apply<G>::type
      >
    {};
  };

  template <class FState, class FP>
  struct apply : apply_impl<FState, FP> {};
};
``` -/
def grammar_util_build_sequence : List Spec :=
  [
  ⟨[],
    [],
    [.type .type (.self 0),
     .tmpl .apply_impl [
      ⟨[.var .FState, .var .FP],
        [],
        [.type .type (.self 0),
         .tmpl .apply [
          ⟨[.var .G],
            [.padded .sequence [.mem (.memT (.var .FState) .apply [.var .G]) .type, .mem (.memT (.var .FP) .apply [.var .G]) .type]],
            []⟩]]⟩],
     .tmpl .apply [
      ⟨[.var .FState, .var .FP],
        [.inner 1 .apply_impl [.var .FState, .var .FP]],
        []⟩]]⟩]

/-- `grammar.hpp:111-131`
```
struct build_selection
{
  typedef build_selection type;

  template <class FState, class FP>
  struct apply_impl
  {
    typedef apply_impl type;

    template <class G>
    struct apply :
      one_of<
        typename FState::template apply<G>::type,
        typename FP::template apply<G>::type
      >
    {};
  };

  template <class FState, class FP>
  struct apply : apply_impl<FState, FP> {};
};
``` -/
def grammar_util_build_selection : List Spec :=
  [
  ⟨[],
    [],
    [.type .type (.self 0),
     .tmpl .apply_impl [
      ⟨[.var .FState, .var .FP],
        [],
        [.type .type (.self 0),
         .tmpl .apply [
          ⟨[.var .G],
            [.padded .one_of [.mem (.memT (.var .FState) .apply [.var .G]) .type, .mem (.memT (.var .FP) .apply [.var .G]) .type]],
            []⟩]]⟩],
     .tmpl .apply [
      ⟨[.var .FState, .var .FP],
        [.inner 1 .apply_impl [.var .FState, .var .FP]],
        []⟩]]⟩]

/-- `grammar.hpp:133-151`
```
template <class G, class Name>
struct get_parser
{
  typedef
    typename boost::mpl::at<typename G::rules, Name>::type
      ::template apply<G>
    p;

  template <class Actions>
  struct impl : transform<typename p::type, typename Actions::type> {};

  typedef
    typename boost::mpl::eval_if<
      typename boost::mpl::has_key<typename G::actions, Name>::type,
      impl<boost::mpl::at<typename G::actions, Name> >,
      p
    >::type
    type;
};
``` -/
def grammar_util_get_parser : List Spec :=
  [
  ⟨[.var .G, .var .Name],
    [],
    [.type .p (.memT (.mem (.cls .mpl_at [.mem (.var .G) .rules, .var .Name]) .type) .apply [.var .G]),
     .tmpl .impl [
      ⟨[.var .Actions],
        [.cls .transform [.mem (.memT (.mem (.cls .mpl_at [.mem (.var .G) .rules, .var .Name]) .type) .apply [.var .G]) .type, .mem (.var .Actions) .type]],
        []⟩],
     .type .type (.mem (.cls .mpl_eval_if [.mem (.cls .mpl_has_key [.mem (.var .G) .actions, .var .Name]) .type, .inner 0 .impl [.cls .mpl_at [.mem (.var .G) .actions, .var .Name]], .var .p]) .type)]⟩]

/-- `grammar.hpp:153-168`
```
struct build_name
{
  typedef build_name type;

  template <class Name>
  struct apply_impl
  {
    typedef apply_impl type;

    template <class G>
    struct apply : get_parser<G, Name> {};
  };

  template <class Name>
  struct apply : apply_impl<Name> {};
};
``` -/
def grammar_util_build_name : List Spec :=
  [
  ⟨[],
    [],
    [.type .type (.self 0),
     .tmpl .apply_impl [
      ⟨[.var .Name],
        [],
        [.type .type (.self 0),
         .tmpl .apply [
          ⟨[.var .G],
            [.cls .grammar_util_get_parser [.var .G, .var .Name]],
            []⟩]]⟩],
     .tmpl .apply [
      ⟨[.var .Name],
        [.inner 1 .apply_impl [.var .Name]],
        []⟩]]⟩]

/-- `grammar.hpp:170-185`
```
struct build_char
{
  typedef build_char type;

  template <class C>
  struct apply_impl
  {
    typedef apply_impl type;

    template <class G>
    struct apply : lit<C> {};
  };

  template <class C>
  struct apply : apply_impl<C> {};
};
``` -/
def grammar_util_build_char : List Spec :=
  [
  ⟨[],
    [],
    [.type .type (.self 0),
     .tmpl .apply_impl [
      ⟨[.var .C],
        [],
        [.type .type (.self 0),
         .tmpl .apply [
          ⟨[.var .G],
            [.cls .lit [.var .C]],
            []⟩]]⟩],
     .tmpl .apply [
      ⟨[.var .C],
        [.inner 1 .apply_impl [.var .C]],
        []⟩]]⟩]

/-- `grammar.hpp:254-260`
```
struct expression :
  foldl_start_with_parser<
    last_of<or_token, seq_expression>,
    seq_expression,
    build_selection
  >
{};
``` -/
def grammar_util_expression : List Spec :=
  [
  ⟨[],
    [.cls .foldl_start_with_parser [.padded .last_of [.cls .token [.cls .lit_c [.num 124]], .cls .foldl_start_with_parser [.cls .foldl_start_with_parser [.padded .one_of [.cls .token [.cls .lit_c [.num 42]], .cls .token [.cls .lit_c [.num 43]]], .padded .one_of [.cls .transform [.cls .middle_of [.cls .lit_c [.num 39], .padded .one_of [.padded .last_of [.cls .lit_c [.num 92], .padded .one_of [.cls .always [.cls .lit_c [.num 110], .cls .mpl_char_ [.num 10]], .cls .always [.cls .lit_c [.num 114], .cls .mpl_char_ [.num 13]], .cls .always [.cls .lit_c [.num 116], .cls .mpl_char_ [.num 9]], .cls .lit_c [.num 92], .cls .lit_c [.num 39]]], .padded .one_char_except_c [.num 39]], .cls .token [.cls .lit_c [.num 39]]], .cls .grammar_util_build_char []], .cls .transform [.cls .token [.cls .foldr1 [.padded .one_of [.padded .one_of [.cls .accept_when [.cls .one_char [], .cls .util_is_letter [.cls .mpl_na []], .cls .error_letter_expected []], .cls .accept_when [.cls .change_error_message [.cls .one_char [], .cls .error_digit_expected []], .cls .util_is_digit [.cls .mpl_na []], .cls .error_digit_expected []]], .cls .lit_c [.num 95]], .padded .string [], .cls .impl_front_inserter []]], .cls .grammar_util_build_name []], .cls .middle_of [.cls .token [.cls .lit_c [.num 40]], .cls .grammar_util_expression [], .cls .token [.cls .lit_c [.num 41]]]], .cls .grammar_util_build_repeated []], .cls .foldl_start_with_parser [.padded .one_of [.cls .token [.cls .lit_c [.num 42]], .cls .token [.cls .lit_c [.num 43]]], .padded .one_of [.cls .transform [.cls .middle_of [.cls .lit_c [.num 39], .padded .one_of [.padded .last_of [.cls .lit_c [.num 92], .padded .one_of [.cls .always [.cls .lit_c [.num 110], .cls .mpl_char_ [.num 10]], .cls .always [.cls .lit_c [.num 114], .cls .mpl_char_ [.num 13]], .cls .always [.cls .lit_c [.num 116], .cls .mpl_char_ [.num 9]], .cls .lit_c [.num 92], .cls .lit_c [.num 39]]], .padded .one_char_except_c [.num 39]], .cls .token [.cls .lit_c [.num 39]]], .cls .grammar_util_build_char []], .cls .transform [.cls .token [.cls .foldr1 [.padded .one_of [.padded .one_of [.cls .accept_when [.cls .one_char [], .cls .util_is_letter [.cls .mpl_na []], .cls .error_letter_expected []], .cls .accept_when [.cls .change_error_message [.cls .one_char [], .cls .error_digit_expected []], .cls .util_is_digit [.cls .mpl_na []], .cls .error_digit_expected []]], .cls .lit_c [.num 95]], .padded .string [], .cls .impl_front_inserter []]], .cls .grammar_util_build_name []], .cls .middle_of [.cls .token [.cls .lit_c [.num 40]], .cls .grammar_util_expression [], .cls .token [.cls .lit_c [.num 41]]]], .cls .grammar_util_build_repeated []], .cls .grammar_util_build_sequence []]], .cls .foldl_start_with_parser [.cls .foldl_start_with_parser [.padded .one_of [.cls .token [.cls .lit_c [.num 42]], .cls .token [.cls .lit_c [.num 43]]], .padded .one_of [.cls .transform [.cls .middle_of [.cls .lit_c [.num 39], .padded .one_of [.padded .last_of [.cls .lit_c [.num 92], .padded .one_of [.cls .always [.cls .lit_c [.num 110], .cls .mpl_char_ [.num 10]], .cls .always [.cls .lit_c [.num 114], .cls .mpl_char_ [.num 13]], .cls .always [.cls .lit_c [.num 116], .cls .mpl_char_ [.num 9]], .cls .lit_c [.num 92], .cls .lit_c [.num 39]]], .padded .one_char_except_c [.num 39]], .cls .token [.cls .lit_c [.num 39]]], .cls .grammar_util_build_char []], .cls .transform [.cls .token [.cls .foldr1 [.padded .one_of [.padded .one_of [.cls .accept_when [.cls .one_char [], .cls .util_is_letter [.cls .mpl_na []], .cls .error_letter_expected []], .cls .accept_when [.cls .change_error_message [.cls .one_char [], .cls .error_digit_expected []], .cls .util_is_digit [.cls .mpl_na []], .cls .error_digit_expected []]], .cls .lit_c [.num 95]], .padded .string [], .cls .impl_front_inserter []]], .cls .grammar_util_build_name []], .cls .middle_of [.cls .token [.cls .lit_c [.num 40]], .cls .grammar_util_expression [], .cls .token [.cls .lit_c [.num 41]]]], .cls .grammar_util_build_repeated []], .cls .foldl_start_with_parser [.padded .one_of [.cls .token [.cls .lit_c [.num 42]], .cls .token [.cls .lit_c [.num 43]]], .padded .one_of [.cls .transform [.cls .middle_of [.cls .lit_c [.num 39], .padded .one_of [.padded .last_of [.cls .lit_c [.num 92], .padded .one_of [.cls .always [.cls .lit_c [.num 110], .cls .mpl_char_ [.num 10]], .cls .always [.cls .lit_c [.num 114], .cls .mpl_char_ [.num 13]], .cls .always [.cls .lit_c [.num 116], .cls .mpl_char_ [.num 9]], .cls .lit_c [.num 92], .cls .lit_c [.num 39]]], .padded .one_char_except_c [.num 39]], .cls .token [.cls .lit_c [.num 39]]], .cls .grammar_util_build_char []], .cls .transform [.cls .token [.cls .foldr1 [.padded .one_of [.padded .one_of [.cls .accept_when [.cls .one_char [], .cls .util_is_letter [.cls .mpl_na []], .cls .error_letter_expected []], .cls .accept_when [.cls .change_error_message [.cls .one_char [], .cls .error_digit_expected []], .cls .util_is_digit [.cls .mpl_na []], .cls .error_digit_expected []]], .cls .lit_c [.num 95]], .padded .string [], .cls .impl_front_inserter []]], .cls .grammar_util_build_name []], .cls .middle_of [.cls .token [.cls .lit_c [.num 40]], .cls .grammar_util_expression [], .cls .token [.cls .lit_c [.num 41]]]], .cls .grammar_util_build_repeated []], .cls .grammar_util_build_sequence []], .cls .grammar_util_build_selection []]],
    []⟩]

/-- `grammar.hpp:266-276`
```
template <class P>
struct build_native_parser
{
  typedef build_native_parser type;

  template <class G>
  struct apply
  {
    typedef P type;
  };
};
``` -/
def grammar_util_build_native_parser : List Spec :=
  [
  ⟨[.var .P],
    [],
    [.type .type (.self 0),
     .tmpl .apply [
      ⟨[.var .G],
        [],
        [.type .type (.var .P)]⟩]]⟩]

/-- `grammar.hpp:278-294`
```
template <class S>
struct build_parsed_parser
{
  typedef typename parser_parser::apply<S>::type p;
  typedef typename boost::mpl::front<p>::type name;
  typedef typename boost::mpl::back<p>::type exp;

  struct the_parser
  {
    typedef the_parser type;

    template <class G>
    struct apply : exp::template apply<G> {};
  };

  typedef boost::mpl::pair<name, the_parser> type;
};
``` -/
def grammar_util_build_parsed_parser : List Spec :=
  [
  ⟨[.var .S],
    [],
    [.type .p (.mem (.memT (.cls .build_parser [.cls .entire_input [.padded .sequence [.cls .token [.cls .foldr1 [.padded .one_of [.padded .one_of [.cls .accept_when [.cls .one_char [], .cls .util_is_letter [.cls .mpl_na []], .cls .error_letter_expected []], .cls .accept_when [.cls .change_error_message [.cls .one_char [], .cls .error_digit_expected []], .cls .util_is_digit [.cls .mpl_na []], .cls .error_digit_expected []]], .cls .lit_c [.num 95]], .padded .string [], .cls .impl_front_inserter []]], .cls .token [.cls .keyword [.padded .string [.num 58, .num 58, .num 61], .cls .impl_void_ []]], .cls .grammar_util_expression []], .cls .error_end_of_input_expected []]]) .apply [.var .S]) .type),
     .type .name (.mem (.cls .mpl_front [.var .p]) .type),
     .type .exp (.mem (.cls .mpl_back [.var .p]) .type),
     .tmpl .the_parser [
      ⟨[],
        [],
        [.type .type (.self 0),
         .tmpl .apply [
          ⟨[.var .G],
            [.memT (.mem (.cls .mpl_back [.mem (.memT (.cls .build_parser [.cls .entire_input [.padded .sequence [.cls .token [.cls .foldr1 [.padded .one_of [.padded .one_of [.cls .accept_when [.cls .one_char [], .cls .util_is_letter [.cls .mpl_na []], .cls .error_letter_expected []], .cls .accept_when [.cls .change_error_message [.cls .one_char [], .cls .error_digit_expected []], .cls .util_is_digit [.cls .mpl_na []], .cls .error_digit_expected []]], .cls .lit_c [.num 95]], .padded .string [], .cls .impl_front_inserter []]], .cls .token [.cls .keyword [.padded .string [.num 58, .num 58, .num 61], .cls .impl_void_ []]], .cls .grammar_util_expression []], .cls .error_end_of_input_expected []]]) .apply [.var .S]) .type]) .type) .apply [.var .G]],
            []⟩]]⟩],
     .type .type (.cls .mpl_pair [.var .name, .inner 0 .the_parser []])]⟩]

/-- `grammar.hpp:298-299`
```
template <class S>
struct rebuild : name_parser::template apply<S> {};
``` -/
def grammar_util_rebuild : List Spec :=
  [
  ⟨[.var .S],
    [.memT (.cls .build_parser [.cls .token [.cls .foldr1 [.padded .one_of [.padded .one_of [.cls .accept_when [.cls .one_char [], .cls .util_is_letter [.cls .mpl_na []], .cls .error_letter_expected []], .cls .accept_when [.cls .change_error_message [.cls .one_char [], .cls .error_digit_expected []], .cls .util_is_digit [.cls .mpl_na []], .cls .error_digit_expected []]], .cls .lit_c [.num 95]], .padded .string [], .cls .impl_front_inserter []]]]) .apply [.var .S]],
    []⟩]

/-- `grammar.hpp:336-343`
```
template <class Start, class Rules, class Actions, class P>
struct add_rule<grammar_builder<Start, Rules, Actions>, P, no_action> :
  grammar_builder<
    Start,
    typename boost::mpl::insert<Rules, typename P::type>::type,
    Actions
  >
{};
```
`grammar.hpp:345-359`
```
template <class Start, class Rules, class Actions, class P, class F>
struct add_rule<grammar_builder<Start, Rules, Actions>, P, F> :
  grammar_builder<
    Start,
    typename boost::mpl::insert<Rules, typename P::type>::type,
    typename boost::mpl::insert<
      Actions,
      boost::mpl::pair<
        typename P::name,
        typename boost::mpl::lambda<F>::type
      >
    >
    ::type
  >
{};
``` -/
def grammar_util_add_rule : List Spec :=
  [
  ⟨[.cls .grammar_util_grammar_builder [.var .Start, .var .Rules, .var .Actions], .var .P, .cls .grammar_util_no_action []],
    [.cls .grammar_util_grammar_builder [.var .Start, .mem (.cls .mpl_insert [.var .Rules, .mem (.var .P) .type]) .type, .var .Actions]],
    []⟩,
  ⟨[.cls .grammar_util_grammar_builder [.var .Start, .var .Rules, .var .Actions], .var .P, .var .F],
    [.cls .grammar_util_grammar_builder [.var .Start, .mem (.cls .mpl_insert [.var .Rules, .mem (.var .P) .type]) .type, .mem (.cls .mpl_insert [.var .Actions, .cls .mpl_pair [.mem (.var .P) .name, .mem (.cls .mpl_lambda [.var .F]) .type]]) .type]],
    []⟩]

/-- `grammar.hpp:361-371`
```
template <class Start, class Rules, class Actions, class Name, class P>
struct add_import<grammar_builder<Start, Rules, Actions>, Name, P> :
  grammar_builder<
    Start,
    typename boost::mpl::insert<
      Rules,
      boost::mpl::pair<Name, build_native_parser<P> >
    >::type,
    Actions
  >
{};
``` -/
def grammar_util_add_import : List Spec :=
  [
  ⟨[.cls .grammar_util_grammar_builder [.var .Start, .var .Rules, .var .Actions], .var .Name, .var .P],
    [.cls .grammar_util_grammar_builder [.var .Start, .mem (.cls .mpl_insert [.var .Rules, .cls .mpl_pair [.var .Name, .cls .grammar_util_build_native_parser [.var .P]]]) .type, .var .Actions]],
    []⟩]

/-- `grammar.hpp:309-334`
```
template <class Start, class Rules, class Actions>
struct grammar_builder
{
  typedef grammar_builder type;
  typedef Rules rules;
  typedef Actions actions;

  // Make it a parser
  template <class S, class Pos>
  struct apply :
    get_parser<
      grammar_builder,
      typename rebuild<Start>::type
    >::type::template apply<S, Pos>
  {};

  template <class Name, class P>
  struct import :
    add_import<grammar_builder, typename rebuild<Name>::type, P>
  {};

  template <class Def, class Action = no_action>
  struct rule :
    add_rule<grammar_builder, build_parsed_parser<Def>, Action>
  {};
};
``` -/
def grammar_util_grammar_builder : List Spec :=
  [
  ⟨[.var .Start, .var .Rules, .var .Actions],
    [],
    [.type .type (.self 0),
     .type .rules (.var .Rules),
     .type .actions (.var .Actions),
     .tmpl .apply [
      ⟨[.var .S, .var .Pos],
        [.memT (.mem (.cls .grammar_util_get_parser [.self 1, .mem (.cls .grammar_util_rebuild [.var .Start]) .type]) .type) .apply [.var .S, .var .Pos]],
        []⟩],
     .tmpl .import_ [
      ⟨[.var .Name, .var .P],
        [.cls .grammar_util_add_import [.self 1, .mem (.cls .grammar_util_rebuild [.var .Name]) .type, .var .P]],
        []⟩],
     .tmpl .rule [
      ⟨[.var .Def, .var .Action],
        [.cls .grammar_util_add_rule [.self 1, .cls .grammar_util_build_parsed_parser [.var .Def], .var .Action]],
        []⟩]]⟩]

/-- `grammar.hpp:374-381`
```
template <class Start = string<'S'> >
struct grammar :
  grammar_util::grammar_builder<
    Start,
    boost::mpl::map<>,
    boost::mpl::map<>
  >
{};
``` -/
def grammar : List Spec :=
  [
  ⟨[.var .Start],
    [.cls .grammar_util_grammar_builder [.var .Start, .cls .mpl_map [], .cls .mpl_map []]],
    []⟩]

/-- `grammar.hpp:187-187` -/
def alias_grammar_util_repeated_token : Tm :=
  .cls .token [.cls .lit_c [.num 42]]

/-- `grammar.hpp:188-188` -/
def alias_grammar_util_repeated1_token : Tm :=
  .cls .token [.cls .lit_c [.num 43]]

/-- `grammar.hpp:189-189` -/
def alias_grammar_util_or_token : Tm :=
  .cls .token [.cls .lit_c [.num 124]]

/-- `grammar.hpp:190-190` -/
def alias_grammar_util_open_bracket_token : Tm :=
  .cls .token [.cls .lit_c [.num 40]]

/-- `grammar.hpp:191-191` -/
def alias_grammar_util_close_bracket_token : Tm :=
  .cls .token [.cls .lit_c [.num 41]]

/-- `grammar.hpp:192-192` -/
def alias_grammar_util_define_token : Tm :=
  .cls .token [.cls .keyword [.padded .string [.num 58, .num 58, .num 61], .cls .impl_void_ []]]

/-- `grammar.hpp:194-212` -/
def alias_grammar_util_char_token : Tm :=
  .cls .middle_of [.cls .lit_c [.num 39], .padded .one_of [.padded .last_of [.cls .lit_c [.num 92], .padded .one_of [.cls .always [.cls .lit_c [.num 110], .cls .mpl_char_ [.num 10]], .cls .always [.cls .lit_c [.num 114], .cls .mpl_char_ [.num 13]], .cls .always [.cls .lit_c [.num 116], .cls .mpl_char_ [.num 9]], .cls .lit_c [.num 92], .cls .lit_c [.num 39]]], .padded .one_char_except_c [.num 39]], .cls .token [.cls .lit_c [.num 39]]]

/-- `grammar.hpp:214-222` -/
def alias_grammar_util_name_token : Tm :=
  .cls .token [.cls .foldr1 [.padded .one_of [.padded .one_of [.cls .accept_when [.cls .one_char [], .cls .util_is_letter [.cls .mpl_na []], .cls .error_letter_expected []], .cls .accept_when [.cls .change_error_message [.cls .one_char [], .cls .error_digit_expected []], .cls .util_is_digit [.cls .mpl_na []], .cls .error_digit_expected []]], .cls .lit_c [.num 95]], .padded .string [], .cls .impl_front_inserter []]]

/-- `grammar.hpp:226-228` -/
def alias_grammar_util_bracket_expression : Tm :=
  .cls .middle_of [.cls .token [.cls .lit_c [.num 40]], .cls .grammar_util_expression [], .cls .token [.cls .lit_c [.num 41]]]

/-- `grammar.hpp:230-236` -/
def alias_grammar_util_name_expression : Tm :=
  .padded .one_of [.cls .transform [.cls .middle_of [.cls .lit_c [.num 39], .padded .one_of [.padded .last_of [.cls .lit_c [.num 92], .padded .one_of [.cls .always [.cls .lit_c [.num 110], .cls .mpl_char_ [.num 10]], .cls .always [.cls .lit_c [.num 114], .cls .mpl_char_ [.num 13]], .cls .always [.cls .lit_c [.num 116], .cls .mpl_char_ [.num 9]], .cls .lit_c [.num 92], .cls .lit_c [.num 39]]], .padded .one_char_except_c [.num 39]], .cls .token [.cls .lit_c [.num 39]]], .cls .grammar_util_build_char []], .cls .transform [.cls .token [.cls .foldr1 [.padded .one_of [.padded .one_of [.cls .accept_when [.cls .one_char [], .cls .util_is_letter [.cls .mpl_na []], .cls .error_letter_expected []], .cls .accept_when [.cls .change_error_message [.cls .one_char [], .cls .error_digit_expected []], .cls .util_is_digit [.cls .mpl_na []], .cls .error_digit_expected []]], .cls .lit_c [.num 95]], .padded .string [], .cls .impl_front_inserter []]], .cls .grammar_util_build_name []], .cls .middle_of [.cls .token [.cls .lit_c [.num 40]], .cls .grammar_util_expression [], .cls .token [.cls .lit_c [.num 41]]]]

/-- `grammar.hpp:238-244` -/
def alias_grammar_util_repeated_expression : Tm :=
  .cls .foldl_start_with_parser [.padded .one_of [.cls .token [.cls .lit_c [.num 42]], .cls .token [.cls .lit_c [.num 43]]], .padded .one_of [.cls .transform [.cls .middle_of [.cls .lit_c [.num 39], .padded .one_of [.padded .last_of [.cls .lit_c [.num 92], .padded .one_of [.cls .always [.cls .lit_c [.num 110], .cls .mpl_char_ [.num 10]], .cls .always [.cls .lit_c [.num 114], .cls .mpl_char_ [.num 13]], .cls .always [.cls .lit_c [.num 116], .cls .mpl_char_ [.num 9]], .cls .lit_c [.num 92], .cls .lit_c [.num 39]]], .padded .one_char_except_c [.num 39]], .cls .token [.cls .lit_c [.num 39]]], .cls .grammar_util_build_char []], .cls .transform [.cls .token [.cls .foldr1 [.padded .one_of [.padded .one_of [.cls .accept_when [.cls .one_char [], .cls .util_is_letter [.cls .mpl_na []], .cls .error_letter_expected []], .cls .accept_when [.cls .change_error_message [.cls .one_char [], .cls .error_digit_expected []], .cls .util_is_digit [.cls .mpl_na []], .cls .error_digit_expected []]], .cls .lit_c [.num 95]], .padded .string [], .cls .impl_front_inserter []]], .cls .grammar_util_build_name []], .cls .middle_of [.cls .token [.cls .lit_c [.num 40]], .cls .grammar_util_expression [], .cls .token [.cls .lit_c [.num 41]]]], .cls .grammar_util_build_repeated []]

/-- `grammar.hpp:246-252` -/
def alias_grammar_util_seq_expression : Tm :=
  .cls .foldl_start_with_parser [.cls .foldl_start_with_parser [.padded .one_of [.cls .token [.cls .lit_c [.num 42]], .cls .token [.cls .lit_c [.num 43]]], .padded .one_of [.cls .transform [.cls .middle_of [.cls .lit_c [.num 39], .padded .one_of [.padded .last_of [.cls .lit_c [.num 92], .padded .one_of [.cls .always [.cls .lit_c [.num 110], .cls .mpl_char_ [.num 10]], .cls .always [.cls .lit_c [.num 114], .cls .mpl_char_ [.num 13]], .cls .always [.cls .lit_c [.num 116], .cls .mpl_char_ [.num 9]], .cls .lit_c [.num 92], .cls .lit_c [.num 39]]], .padded .one_char_except_c [.num 39]], .cls .token [.cls .lit_c [.num 39]]], .cls .grammar_util_build_char []], .cls .transform [.cls .token [.cls .foldr1 [.padded .one_of [.padded .one_of [.cls .accept_when [.cls .one_char [], .cls .util_is_letter [.cls .mpl_na []], .cls .error_letter_expected []], .cls .accept_when [.cls .change_error_message [.cls .one_char [], .cls .error_digit_expected []], .cls .util_is_digit [.cls .mpl_na []], .cls .error_digit_expected []]], .cls .lit_c [.num 95]], .padded .string [], .cls .impl_front_inserter []]], .cls .grammar_util_build_name []], .cls .middle_of [.cls .token [.cls .lit_c [.num 40]], .cls .grammar_util_expression [], .cls .token [.cls .lit_c [.num 41]]]], .cls .grammar_util_build_repeated []], .cls .foldl_start_with_parser [.padded .one_of [.cls .token [.cls .lit_c [.num 42]], .cls .token [.cls .lit_c [.num 43]]], .padded .one_of [.cls .transform [.cls .middle_of [.cls .lit_c [.num 39], .padded .one_of [.padded .last_of [.cls .lit_c [.num 92], .padded .one_of [.cls .always [.cls .lit_c [.num 110], .cls .mpl_char_ [.num 10]], .cls .always [.cls .lit_c [.num 114], .cls .mpl_char_ [.num 13]], .cls .always [.cls .lit_c [.num 116], .cls .mpl_char_ [.num 9]], .cls .lit_c [.num 92], .cls .lit_c [.num 39]]], .padded .one_char_except_c [.num 39]], .cls .token [.cls .lit_c [.num 39]]], .cls .grammar_util_build_char []], .cls .transform [.cls .token [.cls .foldr1 [.padded .one_of [.padded .one_of [.cls .accept_when [.cls .one_char [], .cls .util_is_letter [.cls .mpl_na []], .cls .error_letter_expected []], .cls .accept_when [.cls .change_error_message [.cls .one_char [], .cls .error_digit_expected []], .cls .util_is_digit [.cls .mpl_na []], .cls .error_digit_expected []]], .cls .lit_c [.num 95]], .padded .string [], .cls .impl_front_inserter []]], .cls .grammar_util_build_name []], .cls .middle_of [.cls .token [.cls .lit_c [.num 40]], .cls .grammar_util_expression [], .cls .token [.cls .lit_c [.num 41]]]], .cls .grammar_util_build_repeated []], .cls .grammar_util_build_sequence []]

/-- `grammar.hpp:262-262` -/
def alias_grammar_util_rule_definition : Tm :=
  .padded .sequence [.cls .token [.cls .foldr1 [.padded .one_of [.padded .one_of [.cls .accept_when [.cls .one_char [], .cls .util_is_letter [.cls .mpl_na []], .cls .error_letter_expected []], .cls .accept_when [.cls .change_error_message [.cls .one_char [], .cls .error_digit_expected []], .cls .util_is_digit [.cls .mpl_na []], .cls .error_digit_expected []]], .cls .lit_c [.num 95]], .padded .string [], .cls .impl_front_inserter []]], .cls .token [.cls .keyword [.padded .string [.num 58, .num 58, .num 61], .cls .impl_void_ []]], .cls .grammar_util_expression []]

/-- `grammar.hpp:264-264` -/
def alias_grammar_util_parser_parser : Tm :=
  .cls .build_parser [.cls .entire_input [.padded .sequence [.cls .token [.cls .foldr1 [.padded .one_of [.padded .one_of [.cls .accept_when [.cls .one_char [], .cls .util_is_letter [.cls .mpl_na []], .cls .error_letter_expected []], .cls .accept_when [.cls .change_error_message [.cls .one_char [], .cls .error_digit_expected []], .cls .util_is_digit [.cls .mpl_na []], .cls .error_digit_expected []]], .cls .lit_c [.num 95]], .padded .string [], .cls .impl_front_inserter []]], .cls .token [.cls .keyword [.padded .string [.num 58, .num 58, .num 61], .cls .impl_void_ []]], .cls .grammar_util_expression []], .cls .error_end_of_input_expected []]]

/-- `grammar.hpp:296-296` -/
def alias_grammar_util_name_parser : Tm :=
  .cls .build_parser [.cls .token [.cls .foldr1 [.padded .one_of [.padded .one_of [.cls .accept_when [.cls .one_char [], .cls .util_is_letter [.cls .mpl_na []], .cls .error_letter_expected []], .cls .accept_when [.cls .change_error_message [.cls .one_char [], .cls .error_digit_expected []], .cls .util_is_digit [.cls .mpl_na []], .cls .error_digit_expected []]], .cls .lit_c [.num 95]], .padded .string [], .cls .impl_front_inserter []]]]

end Metaparse.Tmpl.Hdr

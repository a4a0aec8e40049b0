// Classes of the user of the library, as which the values of the model are represented.
namespace user
{
  template <int N, class... Args>
  struct value { typedef value type; };

  template <int N, class A, class B>
  struct flip { typedef flip<N, B, A> type; };

  template <class T>
  struct delayed { typedef T type; };

  template <class... Args>
  struct bad;

  template <int K, class... Args>
  struct rule_of_grammar { typedef rule_of_grammar type; };

  template <int... Cs>
  struct long_string { typedef long_string type; };

  template <int N>
  struct message { typedef message type; };
}

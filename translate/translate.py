# Translates the headers of C++11 and of C++98 to the class templates of /verif/lean/Verif/Model/Templates.
# Usage: translate.py [directory of the Lean files]
import os,sys
HERE=os.path.dirname(os.path.abspath(__file__))
sys.path.insert(0,HERE)
from cpp import *
files=[HERE+'/mpl.hpp',HERE+'/user.hpp']+'''
accept_tag.hpp fail_tag.hpp accept.hpp reject.hpp get_result.hpp get_remaining.hpp get_position.hpp get_message.hpp
get_line.hpp get_col.hpp get_prev_char.hpp is_error.hpp unless_error.hpp
source_position_tag.hpp source_position.hpp start.hpp next_char.hpp next_line.hpp
string_tag.hpp impl/string_iterator_tag.hpp impl/string_iterator.hpp cpp11/string.hpp cpp11/impl/at_c.hpp cpp11/impl/size.hpp cpp11/impl/pop_front.hpp
cpp11/impl/push_front_c.hpp cpp11/impl/push_back_c.hpp cpp11/impl/concat.hpp cpp11/impl/pop_back.hpp cpp11/impl/empty_string.hpp
error/digit_expected.hpp error/end_of_input_expected.hpp error/expected_to_fail.hpp error/index_out_of_range.hpp error/letter_expected.hpp error/literal_expected.hpp error/none_of_the_expected_cases_found.hpp error/unexpected_character.hpp error/unexpected_end_of_input.hpp error/unpaired.hpp error/whitespace_expected.hpp
impl/void_.hpp impl/is_char_c.hpp impl/next_digit.hpp impl/back_inserter.hpp impl/front_inserter.hpp
cpp11/impl/or_c.hpp cpp11/impl/any_of_c.hpp cpp11/impl/is_none_c_impl.hpp cpp11/impl/is_none_c.hpp cpp11/impl/push_front_result.hpp cpp11/impl/eval_later_result.hpp
util/in_range_c.hpp util/is_digit.hpp util/is_lcase_letter.hpp util/is_ucase_letter.hpp util/is_letter.hpp util/is_whitespace_c.hpp util/is_whitespace.hpp util/digit_to_int_c.hpp util/digit_to_int.hpp util/in_range.hpp util/int_to_digit_c.hpp util/int_to_digit.hpp
one_char.hpp empty.hpp fail.hpp return_.hpp accept_when.hpp change_error_message.hpp transform_error_message.hpp transform_error.hpp transform.hpp always.hpp look_ahead.hpp except.hpp optional.hpp if_.hpp fail_at_first_char_expected.hpp
foldl.hpp foldl_reject_incomplete.hpp foldl_start_with_parser.hpp foldl_reject_incomplete_start_with_parser.hpp foldr_start_with_parser.hpp
cpp11/sequence.hpp cpp11/one_of.hpp cpp11/impl/nth_of_c_skip_remaining.hpp cpp11/impl/nth_of_c.hpp cpp11/nth_of_c.hpp cpp11/nth_of.hpp cpp11/first_of.hpp cpp11/last_of.hpp middle_of.hpp
impl/iterate_impl_unchecked.hpp impl/iterate_impl.hpp iterate_c.hpp iterate.hpp lit_c.hpp lit.hpp keyword.hpp cpp11/one_of_c.hpp cpp11/one_char_except_c.hpp cpp11/one_char_except.hpp
range_c.hpp range.hpp digit.hpp digit_val.hpp letter.hpp space.hpp
foldl1.hpp foldr.hpp foldr1.hpp foldl_reject_incomplete1.hpp foldr_reject_incomplete.hpp foldr_reject_incomplete1.hpp
repeated.hpp repeated1.hpp cpp11/repeated_one_of.hpp cpp11/repeated_one_of1.hpp repeated_reject_incomplete.hpp repeated_reject_incomplete1.hpp int_.hpp spaces.hpp token.hpp entire_input.hpp alphanum.hpp always_c.hpp swap.hpp sequence_apply.hpp build_parser.hpp grammar.hpp'''.split()
# the headers of C++98 instead of those of C++11
files98=[]
for f in files:
    if not f.startswith('cpp11/'): files98.append(f)
    if f=='impl/string_iterator.hpp':
        files98+=['cpp98/fwd/string.hpp','cpp98/string.hpp']+['cpp98/impl/%s.hpp'%x for x in 'at_c size pop_front push_front_c update_c push_back_c pop_back empty_string'.split()]
    if f=='repeated1.hpp': files98+=['cpp98/repeated_one_of.hpp','cpp98/repeated_one_of1.hpp']
    if f=='foldr_start_with_parser.hpp':
        files98+=['impl/apply_parser.hpp']+['cpp98/impl/%s.hpp'%x for x in 'is_none later_result skip_seq nth_of_c_impl nth_of_c one_char_except_not_used one_of_fwd_op one_of sequence_impl sequence'.split()]+['cpp98/%s.hpp'%x for x in 'sequence one_of nth_of_c nth_of first_of last_of one_of_c one_char_except_c one_char_except'.split()]
import cpp
texts98=run(files98)
lib98=cpp.lib
for f in PADDED: assert lib98.templates[f].get('pad'),f
for f,t in lib98.templates.items(): assert not t.get('pad') or f in PADDED,f
cpp.lib=lib=Lib()
lib.ids=lib98.ids
# C++11 has no limit but for sequence_apply, which has the default one (limit_sequence_size.hpp:12)
cpp.LIMITS['BOOST_METAPARSE_LIMIT_SEQUENCE_SIZE']='5'
texts=run(files)
import textwrap
OUT=(sys.argv[1] if len(sys.argv)>1 else HERE+'/../lean/Verif/Model/Templates')+'/'
def bodies_of(lib,texts,skip=()):
    bodies={};order=[]
    for f,t in lib.templates.items():
        if not t['specs'] or f in skip: continue
        sp=sort(t['specs'])
        n=NAME(f)[1:]
        doc=[]
        for x in t['specs']:
            p=x['path']
            cite=(('(prelude) ' if p.startswith('/') else '')+'`%s:%d-%d`'%(os.path.basename(p) if p.startswith('/') else p,x['l0'],x['l1']))
            src=texts[p].split('\n')[x['l0']-1:x['l1']]
            src=textwrap.dedent('\n'.join(src)).split('\n')
            if doc and doc[-1]==(cite,src): continue
            doc.append((cite,src))
        d='/-- '
        for cite,src in doc:
            d+=cite+'\n```\n'+'\n'.join(src)+'\n```\n'
        d=d.rstrip('\n')+' -/\n'
        bodies[n]=(d,lspecs(sp,2))
        order.append((n,t['specs'][0]['path'],f))
    return bodies,order
# what c_str is made of is data
all98,order98=bodies_of(lib98,texts98,{'boost::mpl::c_str'})
bodies,order=bodies_of(lib,texts)
paths=dict((n,p) for n,p,_ in order)
# those of C++98 that are not the ones of C++11, and those of C++11 that are not the ones of C++98
only98=[n for n,_,_ in order98 if n not in bodies or bodies[n][1]!=all98[n][1]]
only11=[n for n,_,_ in order if n not in all98 or bodies[n][1]!=all98[n][1]]
FQ={n:f for n,_,f in order98}
al={}
for f,(ps,t,p,l0,l1) in lib.alias.items():
    al[NAME(f)[1:]]=(t,p,l0,l1)
ids=sorted(lib.ids)
# aliases are not identifiers of templates
used=set()
alltext='\n'.join(x[1] for x in list(bodies.values())+list(all98.values()))
for i in ids:
    if re.search(r'\.%s\b'%re.escape(i),alltext) or i in bodies or i in all98: used.add(i)
extra={'user_bad','t_void'}
used|=extra
if __name__=='__main__':
    with open(OUT+'Names.lean','w') as g:
        g.write('''/-!
# Names

The names that occur in the translated headers: of class templates (with the namespace before them, `v1` left out), of their
parameters and of their members.
-/

namespace Metaparse.Tmpl

/-- All names of the translated headers
(for example `accept_when.hpp:22-53`: `accept_when`, `P`, `Pred`, `Msg`, `unchecked`, `apply`, `S`, `Pos`, `type`). -/
inductive Id where
''')
        line='  |'
        for i in sorted(used):
            if len(line)+len(i)>110: g.write(line.rstrip(' |')+'\n'); line='  |'
            line+=' %s |'%i
        g.write(line.rstrip(' |')+'\n  deriving DecidableEq\n\nend Metaparse.Tmpl\n')
    groups={'Prelude':[],'Support':[],'Parsers':[],'Grammar':[]}
    k=files.index('one_char.hpp')
    def group(p): return 'Support' if files.index(p)<k else 'Grammar' if p=='grammar.hpp' else 'Parsers'
    for n,p,_ in order:
        if p.startswith('/'): groups['Prelude'].append(n)
        else: groups[group(p)].append(n)
    heads={'Prelude':'''# What the headers use of other libraries

Boost.MPL, Boost.TypeTraits and the standard library are not part of the repository. These are their templates as
documented, with what the headers use of them; `mpl::deque` and `mpl::list` are not distinguished from
`mpl::vector`, nor `std::is_same` from `boost::is_same`. The templates of
`user.hpp` are the classes that represent values of a user of the library. Both texts are in `/verif/translate`.''',
'Support':'''# The headers, translated: what parsers are made of

Translated by `/verif/translate/translate.py` from the headers of C++11. Paths are relative to
`/repo/include/boost/metaparse/v1/`. Member functions and data that is not a constant are left out.''',
'Parsers':'''# The headers, translated: parsers

Translated by `/verif/translate/translate.py` from the headers of C++11. Paths are relative to
`/repo/include/boost/metaparse/v1/`.''',
'Grammar':'''# The headers, translated: `grammar`

Translated by `/verif/translate/translate.py` from `/repo/include/boost/metaparse/v1/grammar.hpp`.'''}
    for gname,ns in groups.items():
        with open(OUT+gname+'.lean','w') as g:
            g.write('import Verif.Model.Templates.Syntax\n/-!\n'+heads[gname]+'\n-/\n\nnamespace Metaparse.Tmpl.Hdr\n\n')
            for n in ns: g.write('%sdef %s : List Spec :=\n  %s\n\n'%(bodies[n][0],n,bodies[n][1]))
            if gname!='Prelude':
                for n,(t,p,l0,l1) in al.items():
                    if p.startswith('/') or group(p)!=gname: continue
                    g.write('/-- `%s:%d-%d` -/\ndef %s : Tm :=\n  %s\n\n'%(p,l0,l1,'alias_'+n,t))
            g.write('end Metaparse.Tmpl.Hdr\n')
    with open(OUT+'Headers98.lean','w') as g:
        g.write('''import Verif.Model.Templates.Syntax
/-!
# The headers, translated: C++98

Translated by `/verif/translate/translate.py` from the headers of C++98, for any limits. Paths are relative to
`/repo/include/boost/metaparse/v1/`. What a macro of Boost.Preprocessor repeats is a list with a definition for each number;
of these, the ones for smaller numbers are more specialised. A template with a number in its name has the number as its
first argument.
-/

namespace Metaparse.Tmpl.Hdr98

''')
        for n in only98: g.write('%sdef %s (%s : Limits) : List Spec :=\n  %s\n\n'%(all98[n][0],n,'l' if re.search(r'\bl\.',all98[n][1]) else '_l',all98[n][1]))
        g.write('end Metaparse.Tmpl.Hdr98\n')
    with open(OUT+'Library.lean','w') as g:
        g.write('''import Verif.Model.Templates.Prelude
import Verif.Model.Templates.Support
import Verif.Model.Templates.Parsers
import Verif.Model.Templates.Grammar
import Verif.Model.Templates.Headers98
/-!
# The class templates by name
-/

namespace Metaparse.Tmpl

/-- The definitions of a class template, the more specialised ones first; a template that is only declared has none.
(for example `cpp11/impl/is_none_c_impl.hpp:19-29`; the lines of every template are at its translation.) -/
def library [L : Lang] : Id → List Spec
''')
        for n in [n for n,_,_ in order]+[n for n in only98 if n not in bodies]:
            if n in only98 or n in only11:
                g.write('  | .%s => L.headers.pick %s %s\n'%(n,'Hdr.'+n if n in bodies else '[]','Hdr98.'+n if n in all98 else '(fun _ => [])'))
            else: g.write('  | .%s => Hdr.%s\n'%(n,n))
        g.write('  | _ => []\n\n')
        g.write('''/-- How many parameters a class template of C++98 has, and what they are by default, for those with a number of parameters
that have defaults (for example `cpp98/first_of.hpp:17`). -/
def defaults (l : Limits) : Id → Option (Nat × V)
''')
        for n in sorted(PADDED):
            k,d=lib98.templates[n]['pad']
            d=d.replace('.cls ','.cls .root ')
            g.write('  /- `%s` -/\n  | %s => some (%s, %s)\n'%('%s:%d'%lib98.templates[n]['at'],NAME(n),k,d))
        g.write('  | _ => none\n\nend Metaparse.Tmpl\n')
    print(len(only98),len(only11),{k:len(v) for k,v in groups.items()},len(used))

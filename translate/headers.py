#!/usr/bin/env python3
"""Translate the preprocessor structure of the headers to Lean.

Reads every header below include/ of the library.  A header becomes a list of
items: inclusions, conditionals, definitions of macros, and pieces of text.
Of a piece of text only the names of the library are kept: which ones it
declares, which ones it defines, which ones it mentions and which macros of
the library it expands.

Usage: headers.py <repository> <model file> <certificate file>
"""
import os
import re
import sys

KEYWORDS = set(
    'template class struct typename typedef namespace public private protected '
    'static const constexpr int bool char unsigned long short void using '
    'operator return if else sizeof decltype enum true false inline noexcept '
    'default delete friend auto signed this for'.split())
TOKEN = re.compile(
    r'[A-Za-z_][\w#]*|::|\.\.\.|&&|\|\||<=|>=|==|!=|"(?:[^"\\]|\\.)*"'
    r"|'(?:[^'\\]|\\.)*'|\d\w*|\S")
IDENT = re.compile(r'[A-Za-z_]')


def clean(text):
    """Remove line continuations and comments."""
    text = text.replace('\\\n', ' ')
    text = re.sub(r'/\*.*?\*/', lambda m: '\n' * m.group(0).count('\n'), text,
                  flags=re.S)
    return re.sub(r'//[^\n]*', '', text)


def family(text):
    """BOOST_PP_CAT(x, n) names one member of the family x#."""
    text = re.sub(r'BOOST_PP_CAT\(\s*([\w:]+)\s*,\s*(BOOST_\w+)\s*\)', r'\1# \2', text)
    text = re.sub(r'BOOST_PP_CAT\(\s*([\w:]+)\s*,\s*\w+\s*\)', r'\1#', text)
    return re.sub(r'\bBOOST_METAPARSE_V1_I\d+\b', 'BOOST_METAPARSE_V1_I#', text)


def parse(lines, pos, nested):
    """Parse the lines up to the #else, #elif or #endif that ends a group."""
    items = []
    while pos < len(lines):
        m = re.match(r'\s*#\s*(\w+)\s*(.*)', lines[pos])
        if not m:
            if lines[pos].strip():
                toks = TOKEN.findall(family(lines[pos]))
                if items and items[-1][0] == 'text':
                    items[-1][1].extend(toks)
                else:
                    items.append(('text', toks))
            pos += 1
            continue
        word, arg = m.group(1), m.group(2).strip()
        if word in ('else', 'elif', 'endif'):
            assert nested
            return items, pos
        if word in ('if', 'ifdef', 'ifndef'):
            if word == 'ifdef':
                cond = ('defined', arg)
            elif word == 'ifndef':
                cond = ('not', ('defined', arg))
            else:
                cond = expression(arg)
            node, pos = conditional(cond, lines, pos + 1)
            items.append(node)
            continue
        if word == 'include':
            items.append(('include', re.match(r'[<"](.*)[>"]', arg).group(1)))
        elif word == 'define':
            m = re.match(r'(\w+)(\([^)]*\))?\s*(.*)', family(arg).replace('I# ', 'I_FAMILY ', 1)
                         if 'V1_I' in arg and re.match(r'BOOST_METAPARSE_V1_I\d', arg)
                         else family(arg))
            name = m.group(1).replace('I_FAMILY', 'I#')
            node = ('define', name, m.group(2), TOKEN.findall(m.group(3)))
            if name.endswith('#') and items[-1][:2] == ('define', name):
                items[-1][3].extend(t for t in node[3] if t not in items[-1][3])
            else:
                items.append(node)
        elif word == 'undef':
            items.append(('undef', arg))
        elif word == 'error':
            items.append(('error', arg))
        else:
            raise ValueError(word)
        pos += 1
    assert not nested
    return items, pos


def conditional(cond, lines, pos):
    yes, pos = parse(lines, pos, True)
    m = re.match(r'\s*#\s*(\w+)\s*(.*)', lines[pos])
    no = []
    if m.group(1) == 'elif':
        node, pos = conditional(expression(m.group(2)), lines, pos + 1)
        return ('cond', cond, yes, [node]), pos
    if m.group(1) == 'else':
        no, pos = parse(lines, pos + 1, True)
    return ('cond', cond, yes, no), pos + 1


def expression(text):
    toks = TOKEN.findall(text)
    pos = [0]

    def peek():
        return toks[pos[0]] if pos[0] < len(toks) else None

    def take():
        pos[0] += 1
        return toks[pos[0] - 1]

    def primary():
        t = take()
        if t == '(':
            e = either()
            assert take() == ')'
            return e
        if t == '!':
            return ('not', primary())
        if t == 'defined':
            return ('defined', take())
        if t == '__has_extension':
            assert take() == '('
            name = take()
            assert take() == ')'
            return ('feature', name)
        if t.isdigit():
            return ('number', int(t))
        return ('macro', t)

    def comparison():
        left = primary()
        if peek() in ('<', '>=', '>', '=='):
            op = take()
            return ({'<': 'lt', '>=': 'ge', '>': 'gt', '==': 'eq'}[op], left, primary())
        return left

    def both():
        left = comparison()
        while peek() == '&&':
            take()
            left = ('and', left, comparison())
        return left

    def either():
        left = both()
        while peek() == '||':
            take()
            left = ('or', left, both())
        return left
    e = either()
    assert pos[0] == len(toks), text
    return e


class Scanner:
    """Find the names of the library in the text of one header."""

    def __init__(self, macros):
        self.scope = []       # namespaces and classes that are open
        self.local = [set()]  # names that hide those of the library
        self.params = set()   # parameters of the template being declared
        self.defaults = False
        self.macros = macros  # macros of the library
        self.bodies = {}      # macros with a body that declares something

    def namespace(self):
        return tuple(s for s in self.scope if s is not None)

    def in_class(self):
        return None in self.scope

    def expand(self, toks):
        """Put the body of the macros that are defined here in their place."""
        out = []
        for t in toks:
            out.append(t)
            if t in self.bodies:
                out.extend(self.expand(self.bodies[t]))
        return out

    def uses(self, t, k, out):
        w = t[k]
        if not IDENT.match(w) or w in KEYWORDS:
            return
        if w in self.macros:
            out.append(('expand', w))
            return
        if (w in self.params or any(w in s for s in self.local)) and \
                not (k and t[k - 1] == '::'):
            return
        chain, j = [w], k
        while j >= 2 and t[j - 1] == '::':
            if IDENT.match(t[j - 2]) and t[j - 2] not in KEYWORDS:
                chain.insert(0, t[j - 2])
                j -= 2
            else:
                chain.insert(0, '>' if t[j - 2] == '>' else '')
                break
        else:
            if j == 1 and t[0] == '::':
                chain.insert(0, '')
        if chain[0] == '>':
            return
        out.append(('use', tuple(chain), self.namespace()))

    def declare(self, name, kind, out):
        if self.in_class():
            self.local[-1].add(name)
            return
        full = self.namespace() + (name,)
        out.append((kind, full))
        if self.defaults:
            out.append(('define', full + ('=',)))
        self.defaults = False

    def scan(self, toks):
        t = self.expand(toks)
        out, i = [], 0
        while i < len(t):
            w = t[i]
            if w == 'namespace':
                assert t[i + 2] == '{', t[i:i + 4]
                self.scope.append(t[i + 1])
                i += 3
            elif w == '{':
                self.scope.append(None)
                self.local.append(set(self.params))
                self.params = set()
                i += 1
            elif w == '}':
                if self.scope.pop() is None:
                    self.local.pop()
                i += 1
            elif w == ';':
                if not self.in_class():
                    self.params = set()
                    self.defaults = False
                i += 1
            elif w == 'template' and t[i + 1] == '<':
                j, depth = i + 2, 1
                while depth > 0:
                    depth += {'<': 1, '>': -1}.get(t[j], 0)
                    if depth > 0 and IDENT.match(t[j]) and t[j] not in KEYWORDS \
                            and t[j + 1] in (',', '>', '=', ')') \
                            and (t[j - 1] in ('class', 'typename', 'int', 'char', 'bool', '...')):
                        self.params.add(t[j])
                        self.params.add(t[j] + '#')
                    if not self.in_class() and (t[j] == '=' or t[j] == 'BOOST_PP_ENUM_PARAMS_WITH_A_DEFAULT'):
                        self.defaults = True
                    j += 1
                for k in range(i + 2, j):
                    self.uses(t, k, out)
                i = j
            elif w in ('struct', 'class') and IDENT.match(t[i + 1]):
                if t[i + 2] in ('<', '::'):
                    i += 1
                    self.defaults = False
                elif t[i + 1] in self.macros:
                    i += 1
                else:
                    self.declare(t[i + 1], 'declare' if t[i + 2] == ';' else 'define', out)
                    i += 2
            elif w == 'typedef':
                j = t.index(';', i)
                for k in range(i + 1, j - 1):
                    self.uses(t, k, out)
                if IDENT.match(t[j - 1]):
                    self.declare(t[j - 1], 'define', out)
                i = j
            elif w == 'using' and t[i + 2] == '=':
                j = t.index(';', i)
                for k in range(i + 3, j):
                    self.uses(t, k, out)
                self.declare(t[i + 1], 'define', out)
                i = j
            elif w == 'using':
                j = t.index(';', i)
                for k in range(i + 1, j):
                    self.uses(t, k, out)
                if not self.in_class():
                    self.declare(t[j - 1], 'declare', out)
                i = j
            elif w == 'constexpr' and not self.in_class():
                j = i
                while t[j] not in ('(', ';', '<', '{', '::'):
                    j += 1
                if t[j] == '(':
                    self.declare(t[j - 1], 'define', out)
                i = j if t[j] == '(' else i + 1
            elif w == 'BOOST_METAPARSE_V1_DEFINE_ERROR':
                out.append(('expand', w))
                assert t[i + 1] == '('
                self.declare(t[i + 2], 'define', out)
                i += 3
            else:
                self.uses(t, i, out)
                i += 1
        return out


def main(root, model, certificate):
    top = os.path.join(root, 'include')
    files, length = {}, {}
    for d, _, names in os.walk(top):
        for f in names:
            path = os.path.relpath(os.path.join(d, f), top)
            text = open(os.path.join(d, f), errors='replace').read()
            length[path] = text.count('\n')
            files[path] = parse(clean(text).split('\n'), 0, False)[0]

    # The macros of the library
    macros, compiler, config, features, external = [], [], [], [], ['boost/config.hpp']

    def visit(items, fn):
        for i in items:
            fn(i)
            if i[0] == 'cond':
                visit(i[2], fn)
                visit(i[3], fn)

    def intern(table, x):
        if x not in table:
            table.append(x)
        return table.index(x)

    # The order: a header comes after the headers it includes
    order, first = [], ['boost/metaparse/config.hpp'] + \
        ['boost/metaparse/limit_%s_size.hpp' % s for s in
         ('string', 'sequence', 'one_of', 'one_char_except')]

    def place(f):
        if f in order:
            return
        inner = []
        visit(files[f], lambda i: inner.append(i[1]) if i[0] == 'include' else None)
        for g in inner:
            if g in files:
                place(g)
        order.append(f)
    for f in first + sorted(files):
        place(f)
    assert order[:5] == first

    for name in ('BOOST_METAPARSE_CONFIG_HPP', 'BOOST_NO_CONSTEXPR_C_STR', 'BOOST_METAPARSE_STD',
                 'BOOST_METAPARSE_VARIADIC_STRING'):
        intern(macros, name)
    for s in ('STRING', 'SEQUENCE', 'ONE_OF', 'ONE_CHAR_EXCEPT'):
        intern(macros, 'BOOST_METAPARSE_LIMIT_%s_SIZE_HPP' % s)
        intern(macros, 'BOOST_METAPARSE_LIMIT_%s_SIZE' % s)
    intern(macros, 'BOOST_METAPARSE_V1_STRING')
    for f in order:
        visit(files[f], lambda i: intern(macros, i[1]) if i[0] == 'define' else None)

    # The text of each header
    names = []
    scanned = {}

    def walk(items, sc):
        out = []
        for i in items:
            if i[0] == 'text':
                out.append(('text', sc.scan(i[1])))
            elif i[0] == 'cond':
                before = list(sc.scope)
                yes = walk(i[2], sc)
                after = list(sc.scope)
                sc.scope = before
                no = walk(i[3], sc)
                assert sc.scope == after
                out.append(('cond', i[1], yes, no))
            elif i[0] == 'define' and i[2] and 'unused' in i[2] or \
                    i[0] == 'define' and i[2] and 'container' in i[2]:
                sc.bodies[i[1]] = i[3]
                out.append(('define', i[1], None, [], []))
            elif i[0] == 'define':
                value = int(i[3][0]) if len(i[3]) == 1 and i[3][0].isdigit() else None
                keep, sc.scope = sc.scope, []
                need = []
                if i[1] not in ('BOOST_METAPARSE_V1_DEFINE_ERROR',):
                    for k in range(len(i[3])):
                        sc.uses(i[3], k, need)
                sc.scope = keep
                out.append(('define', i[1], value, need, []))
            else:
                out.append(i)
        return out
    for f in order:
        sc = Scanner(set(macros))
        scanned[f] = walk(files[f], sc)
        assert sc.scope == [], f

    def collect(i):
        if i[0] == 'text':
            for e in i[1]:
                if e[0] in ('declare', 'define'):
                    intern(names, e[1])
    for f in order:
        visit(scanned[f], collect)
    known = set(names)

    def resolve(chain, space):
        if chain[0] == '':
            for n in range(len(chain), 1, -1):
                if chain[1:n] in known:
                    return chain[1:n]
            return None
        for i in range(len(space), -1, -1):
            q = space[:i] + chain
            for n in range(i + 1, len(q) + 1):
                if q[:n] in known:
                    return q if n == len(q) else None
        return None

    texts = [0]
    tnames = []

    def ident(f, e):
        if e[0] == 'use':
            q = resolve(e[1], e[2])
            if q is None or q[:2] != ('boost', 'metaparse'):
                return None
            return '.use %d' % names.index(q)
        if e[0] == 'expand':
            return '.expand %d' % macros.index(e[1])
        if e[1][:2] != ('boost', 'metaparse'):
            return None
        return '.%s %d' % ({'declare': 'declare', 'define': 'defn'}[e[0]], names.index(e[1]))

    def expr(e):
        if e[0] == 'number':
            return '(.num %d)' % e[1]
        if e[0] in ('macro', 'defined'):
            c = '.val' if e[0] == 'macro' else '.defd'
            if e[1] in macros:
                return '(%s (.own %d))' % (c, macros.index(e[1]))
            if e[1].startswith('BOOST_'):
                return '(%s (.config %d))' % (c, intern(config, e[1]))
            return '(%s (.compiler %d))' % (c, intern(compiler, e[1]))
        if e[0] == 'feature':
            return '(.feature %d)' % intern(features, e[1])
        return '(.%s %s)' % (e[0], ' '.join(expr(x) for x in e[1:]))

    owners = {}

    def owner(f, n):
        owners.setdefault(n, []).append(f)
    mowners = {}

    def emit(f, items, ind):
        lines = []
        pad = ' ' * ind
        for i in items:
            if i[0] == 'include':
                if i[1] in files:
                    lines.append(pad + '.incl %d <|' % order.index(i[1]))
                else:
                    lines.append(pad + '.external %d <|' % intern(external, i[1]))
            elif i[0] == 'cond':
                lines.append(pad + '.cond %s' % expr(i[1]))
                for b in (i[2], i[3]):
                    body = emit(f, b, ind + 4)
                    lines.append(pad + '  (')
                    lines += body
                    lines[-1] += ')'
                lines[-1] += ' <|'
            elif i[0] == 'define':
                needm, needn = [], []
                for e in i[3]:
                    if e[0] == 'expand':
                        intern(needm, macros.index(e[1]))
                    else:
                        q = resolve(e[1], e[2])
                        if q and q[:2] == ('boost', 'metaparse'):
                            intern(needn, names.index(q))
                lines.append(pad + '.define %d %s %s %s <|' % (
                    macros.index(i[1]), 'none' if i[2] is None else '(some %d)' % i[2], needm, needn))
                mowners.setdefault(macros.index(i[1]), []).append(f)
            elif i[0] == 'undef':
                lines.append(pad + '.undef %d <|' % macros.index(i[1]))
            elif i[0] == 'error':
                lines.append(pad + '.error "%s"' % i[1].replace('"', "'"))
                return lines
            elif i[0] == 'text':
                evs = []
                for e in i[1]:
                    s = ident(f, e)
                    if s and (s not in evs or s.startswith('.defn')):
                        evs.append(s)
                    if s and s.startswith('.defn'):
                        owner(f, names.index(e[1]))
                k = len(names) + len(tnames)
                tnames.append(f)
                owner(f, k)
                evs.insert(0, '.defn %d' % k)
                s = pad + '.text ['
                for n, e in enumerate(evs):
                    e += ', ' if n + 1 < len(evs) else ''
                    if len(s) + len(e) > 100:
                        lines.append(s.rstrip())
                        s = pad + '  '
                    s += e
                lines.append(s + '] <|')
        lines.append(pad + '.done')
        return lines

    out = []
    for n, f in enumerate(order):
        items = scanned[f]
        guards = [k for k, i in enumerate(items) if i[0] == 'cond' and i[1][0] == 'not'
                  and i[1][1][0] == 'defined' and not i[3] and i[2] and i[2][0][:2] == ('define', i[1][1][1])
                  and i[2][0][2] is None]
        if guards:
            assert guards[0] == len(items) - 1, f
            pre, guard, body = items[:-1], items[-1][1][1][1], items[-1][2][1:]
            mowners.setdefault(macros.index(guard), []).append(f)
        else:
            pre, guard, body = items, None, []
        kind = f.split('/')
        out.append('/-- `include/%s`, lines 1–%d. -/' % (f, length[f]))
        out.append('def h%d : Header where' % n)
        out.append('  path := [%s]' % ', '.join('"%s"' % c for c in kind))
        out.append('  pre :=')
        out += emit(f, pre, 4)
        out.append('  guard := %s' % ('none' if guard is None else 'some %d' % macros.index(guard)))
        out.append('  body :=')
        out += emit(f, body, 4)
        out.append('')
    helpers = []
    for f in order:
        visit(scanned[f], lambda i: intern(helpers, macros.index(i[1])) if i[0] == 'undef' else None)
    user = [macros.index('BOOST_METAPARSE_STD')] + \
        [macros.index('BOOST_METAPARSE_LIMIT_%s_SIZE' % s)
         for s in ('STRING', 'SEQUENCE', 'ONE_OF', 'ONE_CHAR_EXCEPT')]

    def strings(xs):
        lines, s = [], ' '
        for n, x in enumerate(xs):
            x = ' "%s"' % x + (',' if n + 1 < len(xs) else ']')
            if len(s) + len(x) > 100:
                lines.append(s)
                s = ' '
            s += x
        return lines + [s]

    def numbers(xs):
        lines, s = [], ' '
        for n, x in enumerate(xs):
            x = ' %s' % x + (',' if n + 1 < len(xs) else ']')
            if len(s) + len(x) > 100:
                lines.append(s)
                s = ' '
            s += x
        return lines + [s]

    def full(n):
        if n[-1] == '=':
            return '::'.join(n[:-1]) + ' (default arguments)'
        return '::'.join(n)
    head = ["/-", "The headers below `include/`, as `translate/headers.py` writes them.  The script",
            "reads the headers; the file is not written by hand.", "-/",
            "import Verif.Model.Inclusion", "", "namespace Metaparse.Inclusion", "",
            "/-- The macros that the headers of the library define (`include/`, every `#define`).  `x#` is the",
            "family of the macros whose names are `x` and a number (for example `include/boost/metaparse/config.hpp` line 46). -/",
            "def macroNames : List String := ["] + strings(macros)
    head += ["", "/-- The macros of the compiler that the headers look at",
             "(`include/boost/metaparse/config.hpp` lines 18–22 and 41–45, `v1/cpp11/string.hpp` line 210,",
             "`v1/cpp11/impl/string.hpp` line 35). -/",
             "def compilerMacros : List String := ["] + strings(compiler)
    head += ["", "/-- The macros of Boost.Config that the headers look at",
             "(`include/boost/metaparse/config.hpp` lines 18–48). -/",
             "def configMacros : List String := ["] + strings(config)
    head += ["", "/-- The extensions of the compiler that the headers ask for",
             "(`include/boost/metaparse/v1/cpp11/string.hpp` line 211). -/",
             "def featureNames : List String := ["] + strings(features)
    head += ["", "/-- The headers of others that the headers include (`include/`, every `#include`)",
             "(for example `include/boost/metaparse/config.hpp` line 9). -/",
             "def externalNames : List String := ["] + strings(external)
    head += ["", "/-- The names that the headers declare in the namespaces of the library, those of the template",
             "arguments that have a default (they may be given only once), and then the pieces of text of the",
             "headers (`include/`, all headers).  `x#` is the family of the names `x` and a number",
             "(for example `include/boost/metaparse/v1/repeated.hpp` line 21). -/",
             "def nameNames : List String := ["] + strings([full(n) for n in names] + ['text of ' + f for f in tnames])
    head.append('')
    tail = ["/-- All headers (`include/`), every one after the headers it includes (every file from its line 1 to its end). -/",
            "def headers : List Header := ["] + numbers(['h%d' % n for n in range(len(order))]) + \
        ['', 'end Metaparse.Inclusion', '']
    open(model, 'w').write('\n'.join(head + out + tail))

    # The certificate: which header defines what, for each standard
    def digits(n):
        s = '%x' % n
        rows = [s[max(0, k - 96):k] for k in range(len(s), 0, -96)][::-1]
        rows[0] = '0x' + rows[0]
        return rows if len(rows) == 1 else [''.join(rows)]
    cert = ["/-", "Which header defines which macro and which name, as `translate/headers.py` writes it.  The lists are",
            "packed into numbers: one bit for each macro, or ten bits for each entry, 1023 for none.  The proofs",
            "check them against the headers.", "-/", "", "namespace Metaparse.Inclusion", "",
            "/-- The macros that a header undefines again. -/",
            "def helperSet : Nat :=", "  %d" % sum(1 << m for m in helpers),
            "", "/-- The macros that the user may define. -/",
            "def userSet : Nat :=", "  %d" % sum(1 << m for m in user)]
    for std, skip in (('98', ('cpp11', 'cpp14')), ('11', ('cpp98', 'cpp14')), ('14', ('cpp98',))):
        for what, table, count in (('macro', mowners, len(macros)), ('name', owners, len(names) + len(tnames))):
            row = (1 << 10 * (count + 1)) - 1
            for n in range(count):
                fs = [f for f in table.get(n, []) if not any('/%s/' % x in f for x in skip)]
                if std == '14' and len(set(fs)) > 1 and any('cpp14' in f for f in fs):
                    fs = [f for f in fs if 'cpp14' in f]
                if what == 'macro' and (n in helpers or n in user):
                    fs = []
                if fs:
                    row -= (1023 - order.index(fs[0])) << (10 * n)
            cert += ["", "/-- The header that defines each %s when the standard is C++%s. -/" % (what, std),
                     "def %sOwner%s : Nat :=" % (what, std), "  0x%x" % row]
    public = [h for h, f in enumerate(order) if not set(f.split('/')) & {'cpp98', 'cpp11', 'cpp14', 'impl'}]
    spelled = [full(n) for n in names]
    titles = []
    for h in public:
        x = '::'.join(c for c in order[h][:-len('.hpp')].split('/') if c != 'fwd')
        for y in (x, x + '#'):
            if y in spelled:
                titles.append('(%d, %d)' % (h, spelled.index(y)))
                break
    cert += ['', '/-- The headers that are there for the user. -/', 'def publicList : List Nat := ['] + numbers(public)
    cert += ['', '/-- The headers that are called after a name, and the name. -/',
             'def titleList : List (Nat × Nat) := ['] + numbers(titles)
    offers = [('config', 'BOOST_METAPARSE_STD')] + \
        [('limit_%s_size' % x, 'BOOST_METAPARSE_LIMIT_%s_SIZE' % x.upper())
         for x in ('string', 'sequence', 'one_of', 'one_char_except')] + \
        [('v1/define_error', 'BOOST_METAPARSE_V1_DEFINE_ERROR'), ('define_error', 'BOOST_METAPARSE_DEFINE_ERROR'),
         ('version', 'BOOST_METAPARSE_VERSION'), ('string', 'BOOST_METAPARSE_STRING'),
         ('string_value', 'BOOST_METAPARSE_STRING_VALUE')]
    offers11 = [('v1/string', 'BOOST_METAPARSE_V1_STRING'), ('v1/string_value', 'BOOST_METAPARSE_V1_STRING_VALUE')]
    for name, what, xs in (('offerList', '', offers), ('offerList11', ' for C++11', offers11)):
        cert += ['', '/-- The headers that are there for a macro%s, and the macro. -/' % what,
                 'def %s : List (Nat × Nat) := [' % name] + \
            numbers(['(%d, %d)' % (order.index('boost/metaparse/%s.hpp' % f), macros.index(m)) for f, m in xs])
    cert += ['', 'end Metaparse.Inclusion', '']
    open(certificate, 'w').write('\n'.join(cert))
    print(len(order), 'headers', len(macros), 'macros', len(names), 'names', len(tnames), 'texts')
    return names, macros, owners, mowners, order


if __name__ == '__main__':
    main(*sys.argv[1:4])

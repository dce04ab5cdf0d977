"""Writes lean/Verif/Conformance/*.lean: the project's own tests (/repo/validators/tests), as tests of the model.

Usage: conformance.py REPO OUTDIR

Every test file that has the form "structs with options, a list of strings and for each whether it is accepted" is translated:
the item with its attribute, the strings, and the condition on the constants `V_..`. Nothing is edited by hand.
"""
import os, re, sys

REPO, OUT = sys.argv[1], sys.argv[2]
# only the answers of libraries
SKIP = ['json', 'regex', 'semver', 'semver_req', 'url']

TESTS = os.path.join(REPO, 'validators/tests')


def block(s, i):
    """The text between the bracket at s[i] and its partner, and the position after it."""
    pair = {'{': '}', '(': ')', '[': ']'}
    depth, j = [], i
    while True:
        c = s[j]
        if c == '"':
            j += 1
            while s[j] != '"':
                j += 2 if s[j] == '\\' else 1
        elif c == "'" and (s[j + 2] == "'" or s[j + 1] == '\\'):
            j = s.index("'", j + 2)
        elif c in pair:
            depth.append(pair[c])
        elif depth and c == depth[-1]:
            depth.pop()
            if not depth:
                return s[i + 1:j], j + 1
        j += 1


def split(s, sep=','):
    """Split at the top level."""
    out, cur, j = [], '', 0
    while j < len(s):
        c = s[j]
        if c in '([{' or c == '"' or (c == '<' and sep == ','):
            if c == '"':
                k = j + 1
                while s[k] != '"':
                    k += 2 if s[k] == '\\' else 1
                k += 1
            elif c == '<':
                k = s.index('>', j) + 1
            else:
                k = block(s, j)[1]
            cur += s[j:k]
            j = k
        elif s.startswith(sep, j):
            out.append(cur)
            cur = ''
            j += len(sep)
        else:
            cur += c
            j += 1
    out.append(cur)
    return [x.strip() for x in out if x.strip()]


def comments(s):
    return re.sub(r'^\s*//.*$', '', s, flags=re.M)


def macros(s):
    """name -> (pattern, body) of `macro_rules!` with one rule, in order; and the invocations `name! { .. }`."""
    defs, uses = [], []
    for m in re.finditer(r'macro_rules! (\w+) \{', s):
        body, end = block(s, m.end() - 1)
        defs.append((m.start(), end, m.group(1), body))
    for m in re.finditer(r'(?<![\w:])(test\d?)! \{', s):
        if any(a <= m.start() < b for a, b, _, _ in defs):
            continue
        uses.append((m.start(), m.group(1), block(s, m.end() - 1)[0]))
    return defs, uses


def nat(c):
    return str(ord(c))


def expr(e, frag):
    m = re.fullmatch(r'(-?)(\d+)', e)
    if m:
        lit = f'.int (ascii "{m.group(2)}")'
    elif e in ('true', 'false'):
        lit, m = f'.bool {e}', None
    elif re.fullmatch(r"b'.'", e):
        lit, m = f'.byte {nat(e[2])}', None
    elif e[0] == '"':
        lit, m = f'.str {e}', None
    elif re.fullmatch(r'[A-Za-z_]\w*', e):
        return f'(.path (some "{e}"))'
    else:
        raise Exception(e)
    if m and m.group(1):
        return f'(.neg ({lit}))'
    return f'(.group (some ({lit})))' if frag else f'(.lit ({lit}))'


def toks(s):
    args = split(s)
    if all(re.fullmatch(r'[A-Za-z_]\w*', a) for a in args):
        return f'(.word "{args[0]}")' if len(args) == 1 else '(.words [' + ', '.join(f'"{a}"' for a in args) + '])'
    if len(args) == 1 and re.fullmatch(r"-?\d+|b'.'|true|false", args[0]):
        return f'(.expr {expr(args[0], False)})'
    return '(.metas [' + ', '.join(meta(a) for a in args) + '])'


def meta(s):
    """A `Meta` from its text. `§` marks the value of an `expr` fragment, which arrives in an invisible group."""
    m = re.match(r'\w+', s)
    name, rest = m.group(0), s[m.end():].strip()
    if not rest:
        return f'.path (some "{name}")'
    if rest[0] == '=':
        e = rest[1:].strip()
        return f'.nameValue (some "{name}") {expr(e.lstrip("§"), e[0] == "§")}'
    return f'.list (some "{name}") {toks(block(rest, 0)[0])}'


def structs(s):
    """(attribute text, name, Lean data) of the structs with a `#[validator(..)]`, in order."""
    out = []
    for m in re.finditer(r'#\[validator\(', s):
        attr, j = block(s, m.end() - 1)
        j = s.index(']', j) + 1
        k = re.compile(r'(?:\s*#\[[^\]]*\])*\s*(?:pub )?struct (\w+)\s*').match(s, j)
        body, end = block(s, k.end())
        if s[k.end()] == '(':
            data = '.unnamed [' + ', '.join('"%s"' % re.sub(r'^pub ', '', f) for f in split(body)) + ']'
        else:
            fs = [re.sub(r'^pub ', '', f) for f in split(body)]
            data = '.named [' + ', '.join('("%s", "%s")' % tuple(x.strip() for x in f.split(':', 1)) for f in fs) + ']'
        out.append((attr, k.group(1), data))
    return out


def params(use, pattern):
    """The parameters of each block of an invocation: texts of metas."""
    res = []
    for b in split(use):
        ps = []
        for p in split(block(b, 0)[0]):
            if '=>' in p:
                k, v = [x.strip() for x in p.split('=>', 1)]
                ps.append((k, ('§' if '$v:expr' in pattern else '') + v))
            else:
                ps.append((p, None))
        res.append(ps)
    return res


def subst(attr, ps):
    attr = re.sub(r'\$\(\$p\(\$v\),\)\*', lambda _: ''.join(f'{k}({v}),' for k, v in ps), attr)
    attr = re.sub(r'\$\(\$p = \$v,\)\*', lambda _: ''.join(f'{k} = {v},' for k, v in ps), attr)
    return re.sub(r'\$\(\$p,\)\*', lambda _: ''.join(f'{k},' for k, _ in ps), attr)


def rust_string(s):
    """A Rust string literal as a Lean one: the escapes used are the same in both."""
    assert re.fullmatch(r'"(?:[^"\\]|\\["\\nt])*"', s, re.S), s
    return s


def cond(e):
    e = re.sub(r'\s*\n\s*', ' ', e.strip())
    parts = split(e, '&&')
    if len(parts) > 1:
        return ' && '.join(cond(p) for p in parts)
    if e in ('true', 'false'):
        return e
    m = re.fullmatch(r"(!?)Validator::(V_\w+)\.(allow|must|disallow|any|lower|upper)\(\)(?: == Some\(b'(.)'\)|\.is_some\(\))?", e)
    if m:
        neg, name, f, byte = m.groups()
        if byte:
            assert f == 'allow' and not neg
            return f'(separator c "{name}").allowed == some {nat(byte)}'
        if e.endswith('.is_some()'):
            assert f == 'must'
            return f'{neg}(separator c "{name}").required.isSome'
        if f in ('any', 'lower', 'upper'):
            return f'{neg}(case c "{name}").' + {'any': 'isAny', 'lower': 'takesLower', 'upper': 'takesUpper'}[f]
        return f'{neg}(tri c "{name}").' + {'allow': 'allows', 'must': 'musts', 'disallow': 'disallows'}[f]
    m = re.fullmatch(r'check_range\((-?\d+)(?:\.0)?, Validator::(V_\w+)\)', e)
    if m:
        return f'CHECK ({m.group(1)}) (limits c "{m.group(2)}")'
    m = re.fullmatch(r'check_(char|byte)_length\((".*"), Validator::(\w+), Validator::(\w+), Validator::(\w+)\)', e, re.S)
    if m:
        return f'{m.group(1)}Length {rust_string(m.group(2))} (number c "{m.group(3)}") (number c "{m.group(4)}") (number c "{m.group(5)}")'
    raise Exception(e)


def cases(s, check):
    out = []
    for m in re.finditer(r'(?<![\w!])test\((?=\s*")', s):
        args = split(block(s, m.end() - 1)[0])
        out.append((rust_string(args[0]), cond(args[1]).replace('CHECK', check)))
    return out


HEAD = '''import Verif.Conformance.Harness

/-!
# The tests of `validators/tests/{file}.rs`

Written by `tools/conformance.py`.
-/

namespace Verif.Conformance.{ns}

open Verif.Attr Verif.Derive Verif.Constants
open Verif.Conformance

'''


def emit(file):
    src = open(os.path.join(TESTS, file + '.rs')).read()
    lines = lambda a, b: f'L{src[:a].count(chr(10)) + 1}-{src[:b].count(chr(10)) + 1}'
    s = comments(src)
    ns = ''.join(w.capitalize() for w in file.split('_'))
    out = HEAD.format(file=file, ns=ns)
    check = 'insideOnly' if 'let RangeOption::Inside' in s else 'checkRange'
    names = []
    fns = [(m.start(), m.group(1)) for m in re.finditer(r'#\[test\]\s*fn (\w+)\(\) \{', s)]
    for i, (a, fn) in enumerate(fns):
        t = s[a:fns[i + 1][0]] if i + 1 < len(fns) else s[a:]
        defs, uses = macros(t)
        if not uses:
            continue
        byname = {n: b for _, _, n, b in defs}
        assert len(byname) == len(defs)
        cs = cases(byname.get('test_case', byname['test']), check)
        parse = 'Validator::parse_str(s)' in t
        out += f'/-- The strings of `{fn}`, and whether they are accepted. -/\ndef {fn}Cases : List Case := [\n'
        out += ',\n'.join(f'  ⟨{x}, fun {"c" if " c " in y else "_"} => {y}⟩' for x, y in cs) + ']\n\n'
        for _, mac, use in uses:
            body = byname[mac]
            pattern = body[:body.index('=> {')] if '=> {' in body else body
            ss = structs(body)
            if 'test_case' in byname:
                m = re.search(r'test_inner!\(', body)
                if not m:
                    called = []
                else:
                    called = split(split(block(body, m.end() - 1)[0], ';')[-1])
                run = [x for x in ss if x[1] in called]
                rest = [x for x in ss if x[1] not in called]
            else:
                run, rest = ss, []
            key = fn + mac.capitalize()
            def items(sel):
                res = []
                for ps in params(use, body[:body.index('$(', 8) + 120]):
                    for attr, name, data in sel:
                        res.append(f'  -- `{name}`\n  ⟨[attr ({meta(subst(attr, ps))})], .struct ({data})⟩')
                return ',\n'.join(res)
            if run:
                out += f'/-- The items of `{mac}!`. -/\ndef {key} : List (Input Toks) := [\n{items(run)}]\n\n'
                out += f'theorem {key}_passes : {key}.all (passes {str(parse).lower()} {fn}Cases) = true := by decide +kernel\n\n'
                names.append(f'{key}_passes')
            if rest:
                out += f'/-- Items of `{mac}!` that are only compiled. -/\ndef {key}Compiled : List (Input Toks) := [\n{items(rest)}]\n\n'
                out += f'theorem {key}Compiled_compiles : {key}Compiled.all compiles = true := by decide +kernel\n\n'
    if file == 'boolean':
        for fn, want in (('parse_str', 'String'), ('parse_char', 'Char'), ('parse_i128', 'Int'), ('parse_u128', 'Int')):
            rows = re.findall(r'assert!\((!?)Validator::' + fn + r'\(([^()]*)\)\.unwrap\(\)\.0\);', s)
            model = {'parse_str': 'Boolean.parseStr (BaseN.strBytes x.1.toList)', 'parse_char': 'Boolean.parseChar x.1'}.get(fn, 'Boolean.parseInt x.1')
            out += f'/-- `{fn}`. -/\ntheorem {fn}_passes : ([' + ', '.join(f'({x}, {"false" if n else "true"})' for n, x in rows)
            out += f'] : List ({want} × Bool)).all (fun x => decide ({model} = .ok x.2)) = true := by decide +kernel\n\n'
    if file == 'length':
        for a, n, d in structs(s):
            rows = re.findall(n + r'::parse_collection\((.*?)\)\.is_(ok|err)\(\)', s)
            size = {'vec![8]': '1', 'vec![]': '0', 'BTreeSet::new()': '0'}
            out += f'/-- `{n}`: collections of these sizes. -/\ntheorem {n[0].lower() + n[1:]}_passes : passesLength ['
            out += ', '.join(f'({size[x]}, {"true" if y == "ok" else "false"})' for x, y in rows)
            out += f'] ⟨[attr ({meta(a)})], .struct ({d})⟩ = true := by decide +kernel\n\n'
    # plain assertions
    st = {n: (a, d) for a, n, d in structs(re.sub(r'macro_rules! \w+ \{', lambda m: '', s)) if '$' not in a}
    plain = []
    for m in re.finditer(r'assert!\((\w+)::validate_str\(("(?:[^"\\]|\\.)*")\)\.is_(ok|err)\(\)\);', s):
        plain.append((m.group(1), rust_string(m.group(2)), 'true' if m.group(3) == 'ok' else 'false'))
    for n, (a, d) in st.items():
        cs = [(x, y) for k, x, y in plain if k == n]
        if not cs:
            continue
        out += f'/-- `{n}`. -/\ndef {n[0].lower() + n[1:]}Item : Input Toks := ⟨[attr ({meta(a)})], .struct ({d})⟩\n\n'
        out += f'theorem {n[0].lower() + n[1:]}_passes : passes false [' + ', '.join(f'⟨{x}, fun _ => {y}⟩' for x, y in cs)
        out += f'] {n[0].lower() + n[1:]}Item = true := by decide +kernel\n\n'
    out += f'end Verif.Conformance.{ns}\n'
    open(os.path.join(OUT, ns + '.lean'), 'w').write(out)
    return ns


# examples about what libraries read: units, floats with decimals
MANUAL_SKIP = SKIP + ['bit', 'byte', 'number']


def manual():
    src = open(os.path.join(REPO, 'validators/src/lib.rs')).read()
    src = src[:src.index('## `validators::Result`')]
    out = '''import Verif.Conformance.Harness

/-!
# The examples of the manual, `validators/src/lib.rs` L41-830

Written by `tools/conformance.py`.
-/

namespace Verif.Conformance.Manual

open Verif.Attr Verif.Derive Verif.Constants
open Verif.Conformance

'''
    for sec in src.split('\n#### ')[1:]:
        name = sec.split('\n')[0].strip()
        if name in MANUAL_SKIP:
            continue
        text = re.sub(r'\]\s*//.*', ']', sec)
        for a, n, d in structs(text):
            low = n[0].lower() + n[1:]
            rows = re.findall(r'assert!\(' + n + r'::parse_string\(("(?:[^"\\]|\\.)*")\)\.is_(ok|err)\(\)\);', text)
            sizes = re.findall(n + r'::parse_collection\((.*?)\)\.is_(ok|err)\(\)', text)
            if not rows and not sizes:
                continue
            out += f'/-- `{n}`. -/\ndef {low} : Input Toks := ⟨[attr ({meta(a)})], .struct ({d})⟩\n\n'
            if rows:
                cs = ', '.join(f'⟨{rust_string(x) if chr(92) + "0" not in x else x.replace(chr(92) + "0", chr(92) + "x00")}, fun _ => {"true" if y == "ok" else "false"}⟩' for x, y in rows)
                out += f'theorem {low}_passes : passes true [{cs}] {low} = true := by decide +kernel\n\n'
            if sizes:
                cs = ', '.join(f'({len(split(block(x, x.index("["))[0]))}, {"true" if y == "ok" else "false"})' for x, y in sizes)
                out += f'theorem {low}_passes : passesLength [{cs}] {low} = true := by decide +kernel\n\n'
    out += 'end Verif.Conformance.Manual\n'
    open(os.path.join(OUT, 'Manual.lean'), 'w').write(out)


if __name__ == '__main__':
    os.makedirs(OUT, exist_ok=True)
    for f in sorted(os.listdir(TESTS)):
        if f.endswith('.rs') and f[:-3] not in SKIP:
            print(emit(f[:-3]))
    manual()
    print('Manual')

#!/usr/bin/env python3
"""Write the source texts and their syntax trees as Lean modules, or check them against the repository.

usage: text.py [--check]

Verif/Text/Files*.lean holds the texts; Verif/Text/Trees*.lean the trees.  The trees need no trust: Lean proves that they are
what the parser returns for the texts.  That the texts are those of the repository is what --check compares.
"""
import os, re, subprocess, sys, tempfile

REPO = '/repo/ordinal-map/src'
LEAN = os.path.join(os.path.dirname(os.path.abspath(__file__)), '..', 'lean')
GROUPS = {
    '': ['ordinal/impls/primitive.rs', 'ordinal/impls/non_zero.rs', 'ordinal/impls/char.rs', 'ordinal/impls/ordering.rs',
         'ordinal/impls/std.rs', 'ordinal/impls/either.rs', 'ordinal/impls/boxed.rs', 'ordinal/impls/array.rs'],
    'Set': ['ordinal/traits.rs', 'values.rs', 'set/array.rs', 'set/iter.rs', 'set/set_ref.rs', 'set/set_mut.rs', 'set/set.rs',
            'set/set64.rs'],
    'Map': ['map/enumerate.rs', 'map/total/iter.rs', 'map/total/map.rs', 'map/total/array_map.rs', 'map/iter.rs', 'map/entry.rs',
            'map/map.rs', 'map/array_map.rs', 'array_from_iter.rs', 'array_as_mut.rs'],
    'Atomic': ['atomic.rs'],
    'Builder': ['array_builder.rs'],
}
PRINT = '''
import Verif.Text.Names
open OrdinalMap.Text
namespace OrdinalMap.Text
deriving instance Repr for Ty, Tys
deriving instance Repr for Pat, Pats
deriving instance Repr for Seg
deriving instance Repr for Ex, Exs, Fls, Arms, Blk
deriving instance Repr for FnDef
deriving instance Repr for ImplDef
deriving instance Repr for Item
end OrdinalMap.Text
def main (args : List String) : IO Unit := do
  for f in args do
    let s ← IO.FS.readFile f
    let r := if f.contains "/map/" then parseIn (f.contains "/total/") s else parse s
    match r with
    | none => IO.println s!"{f}: FAIL"
    | some l => for i in l do
        IO.println ((repr i).pretty 1000000)
        IO.println "@@"
    IO.println "@@@"
'''

def name(f):
    parts = f[:-3].replace('ordinal/impls/', '').replace('set/set', 'set').replace('map/map', 'map').replace('map/total', 'total').split('/')
    return parts[0] + ''.join(p.capitalize() for p in parts[1:])

def camel(x):
    a = x.split('_')
    return a[0] + ''.join(p.capitalize() for p in a[1:])

def wrap(i):
    words, line, lines = re.findall(r'(?:"(?:[^"\\]|\\.)*"|[^ "])+', i), '', []
    for w in words:
        if len(line) + len(w) > 116:
            lines.append(line)
            line = ''
        line += ('  ' if not line else ' ') + w
    return lines + [line]

def files(group):
    out = ['/-!', '# Source texts', '', 'Copies of files of the crate, made and checked by `tools/text.py`.', '-/', '',
           'namespace OrdinalMap.Text', '']
    for f in GROUPS[group]:
        s = open(os.path.join(REPO, f)).read()
        assert '"##' not in s
        out += [f'/-- `{f}` -/', f'def {camel(name(f))}Rs : String := r##"{s}"##', '']
    out += ['end OrdinalMap.Text', '']
    return '\n'.join(out)

def trees(group):
    with tempfile.NamedTemporaryFile('w', suffix='.lean', delete=False) as t:
        t.write(PRINT)
    r = subprocess.run(['lake', 'env', 'lean', '--run', t.name] + [os.path.join(REPO, f) for f in GROUPS[group]],
                       cwd=LEAN, capture_output=True, text=True, check=True).stdout
    os.unlink(t.name)
    out = ['import Verif.Text.Parse', '/-!', '# Syntax trees', '',
           f'The trees of the texts in `Verif.Text.Files{group}`, written by `tools/text.py`.  `Verif.Text.Parsed{group}` proves that they'
           ' are right.' if group else
           'The trees of the texts in `Verif.Text.Files`, written by `tools/text.py`.  `Verif.Text.Parsed` proves that they are right.',
           '-/', '', 'namespace OrdinalMap.Text', '']
    for f, part in zip(GROUPS[group], r.split('@@@\n')):
        n = camel(name(f))
        its = [re.sub(r'\s*\n\s*', ' ', i.strip()) for i in part.split('@@\n') if i.strip()]
        for k, i in enumerate(its):
            i = i.replace('OrdinalMap.Text.', '').replace('(Tys.nil)', 'Tys.nil')
            i = re.sub(r'\{ name := ("[\w:]+"), args := ([^{}]*?) \}', r'⟨\1, \2⟩', i)
            i = re.sub(r'\{ (\w+) := ', '⟨', i).replace(' }', '⟩')
            i = re.sub(r', (tr|ty|consts|fns|self|params|ret|body) := ', ', ', i)
            m = re.fullmatch(r'(Item.impl ⟨.*), \[(.*?)\], \[(⟨"\w+", SelfKind.*)\]⟩', i)
            if m:
                head, cs, fs = m.groups()
                fs = re.split(r', (?=⟨"\w+", SelfKind)', fs)
                cs = re.split(r', (?=\("[A-Z_]+", Ty)', cs) if cs else []
                cs = [re.fullmatch(r'\(("\w+"), (Ty.*?), (Ex.*)\)', c).groups() for c in cs]
                for j, c in enumerate(cs):
                    out += [f'/-- `{c[0][1:-1]}` of item {k} of `{f}`. -/', f'def {n}Const{k}_{j} : Ex :='] + wrap(c[2]) + ['']
                for j, c in enumerate(fs):
                    out += [f'/-- `{c[2:].split(chr(34))[0]}` of item {k} of `{f}`. -/', f'def {n}Fn{k}_{j} : FnDef :='] + wrap(c) + ['']
                i = head + ', [' + ', '.join(f'({c[0]}, {c[1]}, {n}Const{k}_{j})' for j, c in enumerate(cs)) + '], [' + \
                    ', '.join(f'{n}Fn{k}_{j}' for j in range(len(fs))) + ']⟩'
            m = re.fullmatch(r'(Item.(?:trait|fn) (?:"\w+"|\[.*?\]) )(\[?)(⟨"\w+", SelfKind.*⟩)(\]?)', i)
            if m:
                fs = re.split(r', (?=⟨"\w+", SelfKind)', m[3])
                for j, c in enumerate(fs):
                    out += [f'/-- `{c[2:].split(chr(34))[0]}` of item {k} of `{f}`. -/', f'def {n}Fn{k}_{j} : FnDef :='] + wrap(c) + ['']
                i = m[1] + m[2] + ', '.join(f'{n}Fn{k}_{j}' for j in range(len(fs))) + m[4]
            out += [f'/-- Item {k} of `{f}`. -/', f'def {n}Item{k} : Item :='] + wrap(i) + ['']
        out += [f'/-- The items of `{f}`. -/', f'def {n}Tree : List Item :=', '  [' + ', '.join(f'{n}Item{k}' for k in range(len(its))) + ']', '']
    out += ['end OrdinalMap.Text', '']
    return '\n'.join(out)

check = '--check' in sys.argv
bad = False
for g in GROUPS:
    for path, s in ((f'Verif/Text/Files{g}.lean', files(g)),) + (() if check else ((f'Verif/Text/Trees{g}.lean', trees(g)),)):
        p = os.path.join(LEAN, path)
        if check:
            ok = os.path.exists(p) and open(p).read() == s
            print(path, 'ok' if ok else 'DIFFERS')
            bad = bad or not ok
        else:
            open(p, 'w').write(s)
sys.exit(bad)

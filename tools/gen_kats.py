"""Copies the known answer tests of /repo/tests/test_samplerz.cpp into Lean tables."""
import re

src = open('/repo/tests/test_samplerz.cpp').read()

def parse(name):
    start = src.index(name + '[]')
    body = src[start:]
    body = body[:body.index('\n};')]
    first = src[:start].count('\n') + 1
    pat = re.compile(r'\{\s*(-?[\d.]+),\s*([\d.]+),\s*([\d.]+),\s*((?:"[0-9A-F]*"\s*)+),\s*(-?\d+)\s*\}')
    ents = [(m.groups(), first + body[:m.start()].count('\n'), first + body[:m.end()].count('\n')) for m in pat.finditer(body)]
    assert len(ents) == body.count('{') - 1
    return ents

def dec(s):
    i, _, f = s.lstrip('-').partition('.')
    n = int(i + f)
    return (-n if s.startswith('-') else n), len(f)

def ent(g):
    mu, sg, sm, h, z = g
    h = ''.join(re.findall(r'"([^"]*)"', h))
    (a, ae), (b, be), (c, ce) = dec(mu), dec(sg), dec(sm)
    return f'  ⟨{a}, {ae}, {b}, {be}, {c}, {ce}, {len(h) // 2}, 0x{h.lower()}, {z}⟩'

CH = 128
for n in (512, 1024):
    ents = parse(f'falcon{n}_samplerz_kats')
    chunks = [ents[i:i + CH] for i in range(0, len(ents), CH)]
    out = ['import Verif.Model.Kat', '', '/-!', f'# The {len(ents)} known answer tests of Falcon-{n}, written by tools/gen_kats.py',
           '-/', '', 'namespace Falcon', '']
    for i, c in enumerate(chunks):
        out += [f'/-- tests/test_samplerz.cpp:{c[0][1]}-{c[-1][2]}. -/', f'def kats{n}_{i} : List Kat := [',
                ',\n'.join(ent(e[0]) for e in c) + ']', '']
    out += [f'/-- tests/test_samplerz.cpp:{ents[0][1] - 1}-{ents[-1][2] + 1} `falcon{n}_samplerz_kats`. -/',
            f'def kats{n} : List Kat :=',
            '  ' + ' ++ '.join(f'kats{n}_{i}' for i in range(len(chunks))), '', 'end Falcon', '']
    open(f'/verif/lean/Verif/Model/Kat{n}.lean', 'w').write('\n'.join(out))
    per = 8
    for j in range(0, len(chunks), per):
        nm = f'Kat{n}' + 'abc'[j // per]
        out = ['import Verif.Proofs.KatExec', f'import Verif.Model.Kat{n}', '', '/-!', f'# Evaluation of the known answer tests of Falcon-{n}',
               '-/', '', 'namespace Falcon', '', 'set_option maxRecDepth 100000', '']
        for i in range(j, min(j + per, len(chunks))):
            out += [f'theorem kats{n}_{i}_ok : kats{n}_{i}.all katOk = true := by decide +kernel', '']
        out += ['end Falcon', '']
        open(f'/verif/lean/Verif/Proofs/{nm}.lean', 'w').write('\n'.join(out))

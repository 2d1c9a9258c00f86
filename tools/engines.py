#!/usr/bin/env python3
"""Generate lean/Verif/Model/EngineData.lean from ADRpy/data/engine_data (argument: the file to write)."""
import csv, io, os, re, sys
BASE = '/repo/ADRpy/data/engine_data/'
TYPES = ('Turboprop', 'Jet', 'Electric', 'Piston')
def text(p): return open(p, encoding='utf-8-sig', newline='').read().replace('\r\n', '\n').replace('\r', '\n')
def places(s): return len(s.split('.')[1]) if '.' in s else 0
def mant(s, k):
    m = re.fullmatch(r'(-?)(\d+)(?:\.(\d+))?', s)
    assert m, s
    v = int(m[2] + (m[3] or '').ljust(k, '0'))
    return -v if m[1] else v
def ident(f): return re.sub(r'[^A-Za-z0-9]+', '_', f[:-4])
out = ['''import Verif.Model.Propulsion

/-
The files of ADRpy/data/engine_data, generated by tools/engines.py: the tables as packed integers, the polynomials as integers
over a power of ten (the decimals of the files, before pandas and `float` round them to the nearest double).

A table holds its fields column by column, the first field of the first column in the lowest bits. A field of `width` bits is 0
for a blank and otherwise the number times `10 ^ scale`, plus `2 ^ (width - 1)`.
-/

namespace Verif.Propulsion

open Verif

/-- A table of ADRpy/data/engine_data (read at propulsion.py:1769, 1788). -/
structure RawTable where
  names : List String
  rows : ℕ
  scale : ℕ
  width : ℕ
  bits : ℕ

/-- Field `i` of column `c` (encoding of the tables of ADRpy/data/engine_data, see above). -/
def RawTable.field (t : RawTable) (c i : ℕ) : Option ℤ :=
  let v := (t.bits >>> (t.width * (c * t.rows + i))) % 2 ^ t.width
  if v = 0 then none else some ((v : ℤ) - ((2 ^ (t.width - 1) : ℕ) : ℤ))

/-- Column `c` (encoding of the tables of ADRpy/data/engine_data, see above). -/
def RawTable.column (t : RawTable) (c : ℕ) : List (Option ℤ) := (List.range t.rows).map (t.field c)

noncomputable section

/-- The data frame `pd.read_csv` makes of a table. (propulsion.py:1769, 1788) -/
def RawTable.frame (t : RawTable) : Frame :=
  t.names.zipIdx.map (fun n => (n.1, (t.column n.2).map (Option.map (fun v : ℤ => (v : ℝ) / 10 ^ t.scale))))

end

/-- A polynomial file of ADRpy/data/engine_data/Jet_CSVs: coefficients and limits as integers over powers of ten
(read at propulsion.py:1827-1833). -/
structure RawPoly where
  coeffs : List ℤ
  coeffScale : ℕ
  limits : List ℤ
  limitScale : ℕ

noncomputable section

/-- What `_poly_process` returns for a polynomial file. (propulsion.py:1827-1838) -/
def RawPoly.file (p : RawPoly) : PolyFile :=
  (p.coeffs.map (fun v : ℤ => (v : ℝ) / 10 ^ p.coeffScale), p.limits.map (fun v : ℤ => (v : ℝ) / 10 ^ p.limitScale))

end
''']
lists = {}; tabs = {}; polys = {}; engines = {}
for ty in TYPES:
    d = BASE + ty + '_CSVs/'
    lists[ty] = sorted(os.listdir(d)); tabs[ty] = []; polys[ty] = []
    meta = list(csv.reader(io.StringIO(text(d + '_' + ty.lower() + '_metadata.csv'))))
    engines[ty] = [r[0] for r in meta if r]
    for f in lists[ty]:
        if f.endswith('_data.csv'):
            R = [r for r in csv.reader(io.StringIO(text(d + f))) if r and any(x != '' for x in r)]
            H, R = R[0], R[1:]
            assert all(len(r) == len(H) for r in R), f
            k = max(places(x) for r in R for x in r)
            V = [[None if r[c].strip() == '' else mant(r[c], k) for r in R] for c in range(len(H))]
            w = max(v.bit_length() for c in V for v in map(abs, filter(lambda x: x is not None, c))) + 2
            w = -(-w // 4) * 4
            n = 0
            for v in reversed([v for c in V for v in c]): n = (n << w) | (0 if v is None else v + (1 << (w - 1)))
            out.append(f'/-- ADRpy/data/engine_data/{ty}_CSVs/{f}:2-{len(R)+1} -/\ndef {ident(f)} : RawTable where\n  names := ['
                + ', '.join(f'"{h}"' for h in H) + f']\n  rows := {len(R)}\n  scale := {k}\n  width := {w}\n  bits := 0x{n:x}\n')
            tabs[ty].append(f)
        elif 'polynomial' in f:
            L = text(d + f).split('\n')
            C = L[0].split(','); M = [x for x in L[1].split(',') if len(x) != 0]
            kc = max(map(places, C)); km = max(map(places, M))
            out.append(f'/-- ADRpy/data/engine_data/{ty}_CSVs/{f}:1-2 -/\ndef {ident(f)} : RawPoly where\n  coeffs := ['
                + ', '.join(str(mant(x, kc)) for x in C) + f']\n  coeffScale := {kc}\n  limits := [' + ', '.join(str(mant(x, km)) for x in M)
                + f']\n  limitScale := {km}\n')
            polys[ty].append(f)
for ty in TYPES:
    l = ty.lower()
    out.append(f'/-- The files of ADRpy/data/engine_data/{ty}_CSVs. -/\ndef {l}Files : List String := [\n  ' + ',\n  '.join(f'"{f}"' for f in lists[ty]) + ']\n')
    out.append(f'/-- The engines of ADRpy/data/engine_data/{ty}_CSVs/_{l}_metadata.csv (first field of each line). -/\ndef {l}Engines : List String := ['
        + ', '.join(f'"{f}"' for f in engines[ty]) + ']\n')
    out.append(f'/-- The tables of ADRpy/data/engine_data/{ty}_CSVs. -/\ndef {l}Tables : List (String × RawTable) := [\n  '
        + ',\n  '.join(f'("{f}", {ident(f)})' for f in tabs[ty]) + ']\n')
out.append('/-- The polynomials of ADRpy/data/engine_data/Jet_CSVs. -/\ndef jetPolys : List (String × RawPoly) := [\n  '
    + ',\n  '.join(f'("{f}", {ident(f)})' for f in polys['Jet']) + ']\n')
out.append('end Verif.Propulsion')
open(sys.argv[1], 'w').write('\n'.join(out) + '\n')

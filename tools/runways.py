#!/usr/bin/env python3
"""Generate lean/Verif/Model/RunwayData.lean from ADRpy/data/runways.csv."""
import csv
rows=list(csv.reader(open('/repo/ADRpy/data/runways.csv',newline='')))[1:]
COL=(3,4,11,12,17,18)
def ent(r):
    s=r[2]; assert len(s)<=7 and len(r)==20
    n=0
    for c in s: n=n*128+ord(c)
    m=0
    for t,j in enumerate(COL):
        if r[j]=='': m|=1<<t
        else: float(r[j])
    return n*64+m
E=[ent(r) for r in rows]
N=512
out=['''import Mathlib.Data.Nat.Digits.Defs

/-
The airport column of ADRpy/data/runways.csv and which numeric fields are missing, generated from that file by tools/runways.py.
Each row takes 55 bits: the characters of the third field (up to seven of seven bits, the last one lowest), then one bit for each of fields 4, 5, 12, 13, 18 and 19 (length, width, elevation and heading of either end; the first one lowest)
that is set if the field is empty. The first row of a block is in the lowest bits.
-/

namespace Verif.Atmos
''']
names=[]
for b in range(0,len(E),N):
    c=E[b:b+N]; n=0
    for x in reversed(c): n=(n<<55)|x
    nm=f'runways{b//N:02d}'
    out.append(f'/-- ADRpy/data/runways.csv:{b+2}-{b+1+len(c)} -/\ndef {nm} : ℕ := 0x{n:x}\n')
    names.append((len(c),nm))
out.append('/-- ADRpy/data/runways.csv:2-%d: the blocks with their numbers of rows. -/'%(len(E)+1))
out.append('def runwayBlocks : List (ℕ × ℕ) := ['+',\n  '.join(', '.join(f'({k}, {nm})' for k,nm in names[i:i+8]) for i in range(0,len(names),8))+']\n')
out.append("""/-- The first `k` rows of a block, each of 55 bits (encoding of ADRpy/data/runways.csv, see above). -/
def blockRows : ℕ → ℕ → List ℕ
  | 0, _ => []
  | k + 1, n => n % 36028797018963968 :: blockRows k (n / 36028797018963968)

/-- ADRpy/data/runways.csv:2-40490, one number for each row. -/
def runwayRows : List ℕ := runwayBlocks.flatMap (fun b => blockRows b.1 b.2)

/-- Third field of a row (ADRpy/data/runways.csv:2-40490), from its number. -/
def rowIdent (x : ℕ) : String := String.ofList (((Nat.digits 128 (x / 64)).reverse).map Char.ofNat)

/-- Whether one of the fields 4, 5, 12, 13, 18, 19 of a row is empty (ADRpy/data/runways.csv:2-40490), from its number;
`t` counts these fields from zero. -/
def rowEmpty (x t : ℕ) : Prop := x % 64 / 2 ^ t % 2 = 1
""")
out.append('end Verif.Atmos\n')
open('/verif/lean/Verif/Model/RunwayData.lean','w').write('\n'.join(out))
bad=sum(1 for x in E if x%64); st=0; sb=0; p=0
for x in E:
    if p//64!=x//64:
        st+=1; sb+=(x%64!=0)
    p=x
print(len(E),bad,st,sb,E[-1])

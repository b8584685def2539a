#!/usr/bin/env python3
"""Generate lean/Verif/Model/Tables.lean from the 54 CSV files in /repo (exact decimal values, in thousandths)."""
import csv
from decimal import Decimal
D = '/repo/csu_radartools/beta_function_parameters/'
VARS = [('DZ', 'Reflectivity'), ('DR', 'Differential_Reflectivity'), ('KD', 'Specific_Differential_Phase'),
        ('RH', 'Correlation_Coefficient'), ('LD', 'Linear_Depolarization_Ratio'), ('T', 'Temperature')]
SEAS = [('summer', ''), ('winter', '_winter'), ('ml', '_ML')]

def entry(s):
    s = s.strip()
    if s.lower() == 'nan':
        return 'none'
    v = Decimal(s) * 1000
    assert v == int(v), s
    return f'some ({int(v)})' if v < 0 else f'some {int(v)}'

out = ['''import Verif.PyFloat
/-!
# The membership function parameter tables

GENERATED by `tools/gen_tables.py` from `csu_radartools/beta_function_parameters/*.csv` (54 files).  Every entry is the
exact decimal of the CSV times 1000; `none` is the entry `nan`.  Each definition cites its file; row `i` is data row `i`.
-/
namespace Csu.Tables

/-- The six input variables, named as the dictionary keys of csu_fhc.py:301-309. -/
inductive Key | DZ | DR | KD | RH | LD | T
  deriving DecidableEq, Repr

/-- Which of the three families of CSV files, by suffix: none, `_winter`, `_ML` (beta_functions.py:154-424). -/
inductive Season | summer | winter | ml
  deriving DecidableEq, Repr

/-- One row of a CSV: centre `m`, width `a`, slope `b`, in thousandths. -/
structure RawRow where
  m : Option Int
  a : Option Int
  b : Option Int
  deriving DecidableEq, Repr
''']
cases = []
for band in 'SCX':
    for sn, suf in SEAS:
        for key, name in VARS:
            fn = f'{band}-band_{name}{suf}.csv'
            rows = list(csv.reader(open(D + fn)))
            assert rows[0] == ['', 'm', 'a', 'b'], fn
            nm = f'tab{band}_{sn}_{key}'
            body = ',\n   '.join('⟨%s, %s, %s⟩' % tuple(entry(x) for x in r[1:4]) for r in rows[1:] if r)
            out.append(f'/-- {fn}, lines 2-{len(rows)} -/\ndef {nm} : List RawRow :=\n  [{body}]\n')
            cases.append((band, sn, key, nm))
for band in 'SCX':
    out.append(f'/-- the 18 tables of band {band} -/\ndef csv{band} : Season → Key → List RawRow')
    for b, sn, key, nm in cases:
        if b == band:
            out.append(f'  | .{sn}, .{key} => {nm}')
    out.append('')
out.append('''/-- The file `fdir + band + '-band_' + variable + suffix + '.csv'`, beta_functions.py:120-131 and its callers, for the
shipped directory; `none` when there is no such file.  Bands are case sensitive. -/
def csv (band : String) (s : Season) (k : Key) : Option (List RawRow) :=
  if band = "S" then some (csvS s k)
  else if band = "C" then some (csvC s k)
  else if band = "X" then some (csvX s k)
  else none

end Csu.Tables''')
open('/verif/lean/Verif/Model/Tables.lean', 'w').write('\n'.join(out) + '\n')

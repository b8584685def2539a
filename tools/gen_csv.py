#!/usr/bin/env python3
"""Generate lean/Verif/Model/CsvText.lean: the text of the 54 CSV files in /repo, byte for byte."""
import os
D = '/repo/csu_radartools/beta_function_parameters/'
def q(s):
    assert all(c == '\n' or 32 <= ord(c) < 127 for c in s)
    return '"' + s.replace('\\', '\\\\').replace('"', '\\"').replace('\n', '\\n') + '"'
out = ['''/-!
# The text of the parameter files

GENERATED by `tools/gen_csv.py`: the files of `csu_radartools/beta_function_parameters`, byte for byte.
-/
namespace Csu.Csv
''']
names = sorted(os.listdir(D))
assert len(names) == 54
ids = []
for n in names:
    t = open(D + n, newline='').read()
    i = 'txt' + n[0] + '_' + n[len('X-band_'):-4]
    ids.append((n, i))
    out.append(f'/-- {n} -/\ndef {i} : String :=\n  {q(t)}\n')
out.append('/-- csu_radartools/beta_function_parameters: file names and contents -/\ndef shippedFiles : List (String × String) :=\n  ['
           + ',\n   '.join(f'({q(n)}, {i})' for n, i in ids) + ']\n\nend Csu.Csv\n')
open('/verif/lean/Verif/Model/CsvText.lean', 'w').write('\n'.join(out))
V = {'Reflectivity': 'DZ', 'Differential_Reflectivity': 'DR', 'Specific_Differential_Phase': 'KD',
     'Correlation_Coefficient': 'RH', 'Linear_Depolarization_Ratio': 'LD', 'Temperature': 'T'}
lem = ['''import Verif.Lemmas.CsvElab
/-!
# The shipped files parse to the tables of `Model/Tables.lean`

GENERATED by `tools/gen_csv.py`: one theorem per file, checked by kernel evaluation of the parser on the text of the file.
-/
namespace Csu.Csv
open Csu Tables
''']
for n, i in ids:
    b = n[len('X-band_'):-4]
    s, suf = ('winter', '_winter') if b.endswith('_winter') else ('ml', '_ML') if b.endswith('_ML') else ('summer', '')
    k = V[b[:len(b) - len(suf)]]
    lem.append(f'theorem ok_{n[0]}_{s}_{k} : Parses {i} tab{n[0]}_{s}_{k} := by csv_check {i}')
cell = {}
for n, i in ids:
    b = n[len('X-band_'):-4]
    s, suf = ('winter', '_winter') if b.endswith('_winter') else ('ml', '_ML') if b.endswith('_ML') else ('summer', '')
    cell[n[0], s, V[b[:len(b) - len(suf)]]] = i
for B in 'SCX':
    lem.append(f'\ntheorem find_{B} : ∀ s k, ∃ t, shippedFiles.lookup (fileName "{B}" s k) = some t ∧ Parses t (csv{B} s k)')
    for s in ('summer', 'winter', 'ml'):
        for k in V.values():
            i = cell[B, s, k]
            lem.append(f'  | .{s}, .{k} => ⟨{i}, by krfl, ok_{B}_{s}_{k}⟩')
lem.append('\nend Csu.Csv\n')
open('/verif/lean/Verif/Lemmas/CsvText.lean', 'w').write('\n'.join(lem))

#!/usr/bin/env python3
"""Write lean/Verif/Model/StepSource.lean: the text of the Go files below as Lean strings.
With the argument `check`, compare the strings in the file with /repo instead."""
import os, re, sys
OUT = os.path.join(os.path.dirname(os.path.abspath(__file__)), '../lean/Verif/Model/StepSource.lean')

FILES = [('Step1', 'AggregatorVerifierStep1.go'), ('Step2', 'AggregatorVerifierStep2.go'), ('Step3', 'AggregatorVerifierStep3.go'),
         ('Main', 'main.go'), ('Lib', 'aggregator_lib_circuit.go'), ('Pairing', 'pairing_circuit.go'), ('Kyc', 'kyc.go'), ('Fr', 'fr.go'), ('Circuit', 'circuit.go'),
         ('Msm', 'msm.go'), ('Utils', 'utils.go'), ('Hash', 'hash.go')]

def go(f): return open(f'/repo/{f}').read()

if sys.argv[1:] == ['check']:
    t = open(OUT).read()
    for n, f in FILES:
        s = re.search(r'def go%s : String := r#"(.*?)"#' % n, t, re.S).group(1)
        print(f, 'same' if s == go(f) else 'DIFFERENT')
    sys.exit()
out = '''/-
The text of some files of /repo, GENERATED by tools/gen_source.py: each string goXxx is a file, byte for byte
(`tools/gen_source.py check` compares them).
-/
import Verif.Model.GoText

namespace Verif

'''
for n, f in FILES:
    x = go(f)
    assert '"#' not in x and '\\r' not in x
    if n.startswith('Step'):
        sig = ') ([43]frontend.Variable, error) {\n'
        h = x[:x.index(sig) + len(sig)]
        out += f'/-- The beginning of /repo/{f}:1-{h.count(chr(10))}: imports and signature. -/\ndef goHead{n[4:]} : String := r#"{h}"#\n\n'
    out += f'/-- The text of /repo/{f}:1-{x.count(chr(10))}. -/\ndef go{n} : String := r#"{x}"#\n\n'
out += 'end Verif\n'
open(OUT, 'w').write(out)

"""Prepare a scratch copy of lean/ for evaluation: registers become arrays of 64 bytes.

The model describes a register as a function, which is convenient in proofs, but evaluating nested
functions takes exponential time. Usage: evaluable.py DIR (a copy of lean/, never lean/ itself).
"""
import re, sys

root = sys.argv[1]
p = root + '/Verif/Model/Simd.lean'
s = open(p).read()
s = s.replace('abbrev Reg := Nat → UInt8', '''structure Reg where
  a : Array UInt8
instance : CoeFun Reg (fun _ => Nat → UInt8) := ⟨fun r i => r.a.getD i 0⟩
instance : Inhabited Reg := ⟨⟨#[]⟩⟩
/-- The first 64 bytes. -/
def Reg.of (f : Nat → UInt8) : Reg := ⟨Array.ofFn (n := 64) fun i => f i.val⟩
instance : Coe (Nat → UInt8) Reg := ⟨Reg.of⟩''')
s = re.sub(r': Reg := fun (i|_) =>', r': Reg := Reg.of fun \1 =>', s)
s = s.replace('pure (fun j =>', 'pure (Reg.of fun j =>')
open(p, 'w').write(s)
for f in ('Sse2', 'Avx2'):
    p = f'{root}/Verif/Model/{f}.lean'
    s = open(p).read()
    s = re.sub(r'^(  store .*?)\(fun i =>', r'\1(.of fun i =>', s, flags=re.M)
    open(p, 'w').write(s)
p = root + '/Verif/Model/Neon.lean'
s = open(p).read()
s = re.sub(r': (Simd\.)?Reg := fun (\w+) =>', r': \1Reg := Simd.Reg.of fun \2 =>', s)
open(p, 'w').write(s)

import Verif.Model.Float
open Verif
def ofF (f : Float) : F64 :=
  let b := f.toBits.toNat
  let s : Nat := b >>> 63; let e : Nat := (b >>> 52) % 2048; let m : Nat := b % 2^52
  if e = 2047 then (if m = 0 then .inf (s=1) else .nan)
  else
    let v : Rat := if e = 0 then (m:Rat) * F64.pow2 (-1074) else (((2^52+m) : Nat) : Rat) * F64.pow2 ((e:Int)-1075)
    .fin (if s=1 then -v else v)
def rnd (g : StdGen) : Float × StdGen :=
  let (k,g) := randNat g 0 5
  let (a,g) := randNat g 0 (2^52-1)
  let (s,g) := randNat g 0 1
  let (e,g) := if k = 0 then randNat g 0 2047 else if k=1 then randNat g 0 3 else if k = 2 then randNat g 2040 2047 else randNat g 1000 1060
  let a := if k = 5 then (a >>> 40) <<< 40 else a
  (Float.ofBits (UInt64.ofNat (s*2^63 + e*2^52 + a)), g)
def test (n : Nat) : Nat × Nat := Id.run do
  let mut g := mkStdGen 42
  let mut bad := 0
  let mut tot := 0
  for _ in [0:n] do
    let (x,g1) := rnd g
    let (y,g2) := rnd g1
    g := g2
    let a := ofF x; let b := ofF y
    for (u,v) in [(ofF (x+y), a+b), (ofF (x-y), a-b),(ofF (x*y), a*b),(ofF (x/y), a/b),(ofF x.sqrt, a.sqrt),(ofF x.round, a.round),(ofF x.abs, a.abs), (.fin x.toUInt32.toNat, .fin a.toU32)] do
      tot := tot+1
      if u ≠ v then
        if y == 0 || x == 0 then pure () else bad := bad+1
    if F64.lt a b ≠ decide (x < y) || F64.le a b ≠ decide (x ≤ y) then bad := bad + 1
  return (bad,tot)
#eval test 20000

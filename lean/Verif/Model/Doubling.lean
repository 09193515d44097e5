import Verif.Model.Elem

/-!
# Broadcasting and reducing by doubling and halving

include/Broadcaster.hpp and include/Reducer.hpp.  They run on the GPU; what is modelled is what the calls do to memory.  One memory holds all arrays.  Calls do not
fail, and one finishes before the next begins.
-/

namespace Cnine

variable {α : Type}

namespace Doubling

/-- `n` cells at `a` and `n` at `b` share none. -/
def apart (a b n : Nat) : Bool := n = 0 || a + n ≤ b || b + n ≤ a

/-- `cudaMemcpy(dst,src,n)` as called in include/Broadcaster.hpp:39-50, in units of floats: the ranges must not overlap. -/
def memcpy (m : Buf α) (dst src n : Nat) : Res (Buf α) := do
  Res.need (apart dst src n)
  stdCopy m src n dst

/-- `cublasSaxpy(n,1,src,1,dst,1)` as called in include/Reducer.hpp:41-51: each of `n` cells gets another added.  The ranges must be the same or not overlap. -/
def saxpy [Add α] (m : Buf α) (n src dst : Nat) : Res (Buf α) := do
  Res.need (decide (dst = src) || apart dst src n)
  stdAdd (· + ·) m src n dst

/-- include/Broadcaster.hpp:35-37, 65-67: `while(e<=n){e*=2;s++;}`, at most `fuel` times. -/
def upTo (n : Nat) : Nat → Nat → Nat → Res (Nat × Nat)
  | 0, _, _ => .ub
  | fuel + 1, e, s => if e ≤ n then upTo n fuel (e * 2) (s + 1) else .ok (e, s)

/-- include/Reducer.hpp:36-38, 66-68: `while(e<n){e*=2;s++;}`, at most `fuel` times. -/
def below (n : Nat) : Nat → Nat → Nat → Res (Nat × Nat)
  | 0, _, _ => .ub
  | fuel + 1, e, s => if e < n then below n fuel (e * 2) (s + 1) else .ok (e, s)

/-- include/Broadcaster.hpp:31-52 `BroadcastCopy_cfloat`. -/
def broadcastCopy (m : Buf α) (dest destc source sourcec c n : Nat) : Res (Buf α) :=
  if n = 0 then .ok m else do
    let (_, s) ← upTo n (n + 1) 1 0
    let m ← memcpy m dest source c
    let m ← memcpy m destc sourcec c
    let (m, e) ← loop (s - 1) (m, 1) fun _ (m, e) => do
      let m ← memcpy m (dest + e * c) dest (e * c)
      let m ← memcpy m (destc + e * c) destc (e * c)
      .ok (m, e * 2)
    let m ← memcpy m (dest + e * c) dest ((n - e) * c)
    memcpy m (destc + e * c) destc ((n - e) * c)

/-- include/Broadcaster.hpp:60-82 `BroadcastAdd_cfloat`. -/
def broadcastAdd [Add α] (m : Buf α) (dest destc source sourcec c n : Nat) : Res (Buf α) :=
  if n = 0 then .ok m else do
    let (_, s) ← upTo n (n + 1) 1 0
    let m ← saxpy m c source dest
    let m ← saxpy m c sourcec destc
    let (m, e) ← loop (s - 1) (m, 1) fun _ (m, e) => do
      let m ← saxpy m (e * c) dest (dest + e * c)
      let m ← saxpy m (e * c) destc (destc + e * c)
      .ok (m, e * 2)
    let m ← saxpy m ((n - e) * c) dest (dest + e * c)
    saxpy m ((n - e) * c) destc (destc + e * c)

/-- include/Reducer.hpp:31-53 `ReduceAddDestroy_cfloat`. -/
def reduceDestroy [Add α] (m : Buf α) (dest destc source sourcec c n : Nat) : Res (Buf α) :=
  if n = 0 then .ok m else do
    let (e, s) ← below n (n + 1) 1 0
    let e := e / 2
    let m ← saxpy m ((n - e) * c) (source + e * c) source
    let m ← saxpy m ((n - e) * c) (sourcec + e * c) sourcec
    let (m, _) ← loop (s - 1) (m, e) fun _ (m, e) => do
      let e := e / 2
      let m ← saxpy m (e * c) (source + e * c) source
      let m ← saxpy m (e * c) (sourcec + e * c) sourcec
      .ok (m, e)
    let m ← saxpy m c source dest
    saxpy m c sourcec destc

/-- include/Reducer.hpp:61-91 `ReduceAdd_cfloat`; the buffer is at `buf` and holds `junk`. -/
def reduceAdd [Add α] (junk : Nat → α) (buf : Nat) (m : Buf α) (dest destc source sourcec c n : Nat) : Res (Buf α) :=
  if n = 0 then .ok m else do
    let (e, s) ← below n (n + 1) 1 0
    let e := e / 2
    let m : Buf α := fun p => if buf ≤ p ∧ p < buf + 2 * e * c then some (junk p) else m p
    let bufc := buf + e * c
    let m ← memcpy m buf source (e * c)
    let m ← memcpy m bufc sourcec (e * c)
    let m ← saxpy m ((n - e) * c) (source + e * c) buf
    let m ← saxpy m ((n - e) * c) (sourcec + e * c) bufc
    let (m, _) ← loop (s - 1) (m, e) fun _ (m, e) => do
      let m ← saxpy m (e * c) (buf + e * c) buf
      let m ← saxpy m (e * c) (buf + e * c) bufc
      .ok (m, e / 2)
    let m ← saxpy m c buf dest
    saxpy m c bufc destc

end Doubling

/-! ### Indices of symmetric tensors -/

namespace IxSymm

/-- include/GindexSymm.hpp:51-56: the place of `(i0,i1)`, in `int` (without bounds). -/
def at2 (n : Int) (i0 i1 : Int) : Int :=
  let a := if i0 ≤ i1 then i0 else i1
  let b := if i0 ≤ i1 then i1 else i0
  a * n - Int.tdiv (a * (a + 1)) 2 + b

/-- include/GindexSymm.hpp:58-60: three indices. -/
def at3 (_ _ _ : Int) : Int := 0

/-- include/GindexSymm.hpp:62-68: an index of any length; `n` is the second size. -/
def atIx (n : Int) : List Int → Res Int
  | [] => .ub
  | [i] => .ok i
  | [i, j] => .ok (at2 n i j)
  | [i, j, k] => .ok (at3 i j k)
  | i :: _ => .ok i

/-- include/GindexFuser.hpp:61-63. -/
def fuse2 (n1 i0 i1 : Int) : Int := i0 * n1 + i1

/-- include/GindexFuser.hpp:65-67. -/
def fuse3 (n1 n2 i0 i1 i2 : Int) : Int := (i0 * n1 + i1) * n2 + i2

end IxSymm

end Cnine

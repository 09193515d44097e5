import Verif.Model.Basic

/-!
# Kernels on the GPU

How the kernels of cuda/*.cu run.  A kernel is run by threads; a thread is a program of reads and writes of single cells of one memory.  The threads of a launch run
interleaved in any order, one access at a time.  Launches of one stream run one after another.  A launch whose numbers of blocks and threads the GPU does not
allow does nothing: it returns an error that the code does not look at (`<<<...>>>` without check).
-/

namespace Cnine

variable {α β γ : Type}

namespace Gpu

/-- The body of a `__global__` function (for example cuda/TensorView_add.cu:26-29) for one thread, as the accesses it makes. -/
inductive Thr (α β : Type)
  | ret (b : β)
  | read (p : Nat) (k : α → Thr α β)
  | write (p : Nat) (v : α) (k : Thr α β)
  | fail

namespace Thr

/-- One piece of code after another. -/
def bind (x : Thr α β) (f : β → Thr α γ) : Thr α γ :=
  match x with
  | ret b => f b
  | read p k => read p fun v => (k v).bind f
  | write p v k => write p v (k.bind f)
  | fail => fail

instance : Monad (Thr α) where
  pure := ret
  bind := bind

/-- `*p` (for example cuda/TensorView_add.cu:27). -/
def rd (p : Nat) : Thr α α := read p ret

/-- `*p=v` (for example cuda/TensorView_assign.cu:27). -/
def wr (p : Nat) (v : α) : Thr α Unit := write p v (ret ())

/-- `*p+=v` (for example cuda/TensorView_add.cu:27). -/
def inc [Add α] (p : Nat) (v : α) : Thr α Unit := do
  let r ← rd p
  wr p (r + v)

/-- `for(int i=0; i<n; i++)` in a kernel (for example cuda/RtensorUtils.cu:228-229). -/
def loop (n : Nat) (b : β) (f : Nat → β → Thr α β) : Thr α β :=
  match n with
  | 0 => ret b
  | n + 1 => do
    let b ← loop n b f
    f n b

/-- The thread alone. -/
def run (t : Thr α β) (m : Buf α) : Res (Buf α × β) :=
  match t with
  | ret b => .ok (m, b)
  | read p k => match m p with
    | some v => (k v).run m
    | none => .ub
  | write p v k => match m p with
    | some _ => k.run fun q => if q = p then some v else m q
    | none => .ub
  | fail => .ub

/-- Nothing left to do. -/
def isRet : Thr α β → Bool
  | ret _ => true
  | _ => false

end Thr

/-- One access of thread `i`. -/
def step (i : Nat) (s : Buf α × List (Thr α Unit)) : Res (Buf α × List (Thr α Unit)) :=
  match s.2[i]? with
  | none => .ok s
  | some (.ret _) => .ok s
  | some (.read p k) => match s.1 p with
    | some v => .ok (s.1, s.2.set i (k v))
    | none => .ub
  | some (.write p v k) => match s.1 p with
    | some _ => .ok (fun q => if q = p then some v else s.1 q, s.2.set i k)
    | none => .ub
  | some .fail => .ub

/-- Accesses in the order of a schedule, a list of numbers of threads. -/
def exec (sched : List Nat) (s : Buf α × List (Thr α Unit)) : Res (Buf α × List (Thr α Unit)) :=
  Res.forM sched s fun s i => step i s

/-- `dim3` (for example cuda/TensorView_add.cu:79). -/
structure D3 where
  x : Nat
  y : Nat := 1
  z : Nat := 1
deriving DecidableEq, Repr

/-- The indices below `d`. -/
def D3.all (d : D3) : List D3 :=
  (List.range d.x).flatMap fun x => (List.range d.y).flatMap fun y => (List.range d.z).map fun z => ⟨x, y, z⟩

/-- `kernel<<<blocks,threads,0,stream>>>(...)`; the kernel gets `blockIdx` and `threadIdx`. -/
structure Launch (α : Type) where
  blocks : D3
  threads : D3
  kern : D3 → D3 → Thr α Unit

/-- The numbers of blocks and threads a GPU allows (compute capability 3.0 and later). -/
def Launch.valid (l : Launch α) : Bool :=
  decide (0 < l.blocks.x ∧ 0 < l.blocks.y ∧ 0 < l.blocks.z ∧ 0 < l.threads.x ∧ 0 < l.threads.y ∧ 0 < l.threads.z ∧ l.blocks.x ≤ 2147483647 ∧ l.blocks.y ≤ 65535 ∧
    l.blocks.z ≤ 65535 ∧ l.threads.x * l.threads.y * l.threads.z ≤ 1024 ∧ l.threads.z ≤ 64)

/-- The pairs of block and thread. -/
def Launch.ids (l : Launch α) : List (D3 × D3) := l.blocks.all.flatMap fun b => l.threads.all.map fun t => (b, t)

/-- The threads of a launch at its start. -/
def Launch.start (l : Launch α) : List (Thr α Unit) := l.ids.map fun q => l.kern q.1 q.2

/-- What launches on one stream can end in. -/
inductive Out : List (Launch α) → Buf α → Res (Buf α) → Prop
  | nil (m : Buf α) : Out [] m (.ok m)
  | skip {l ls m o} (h : l.valid = false) (hr : Out ls m o) : Out (l :: ls) m o
  | ran {l ls m o} (h : l.valid = true) (sched : List Nat) (m' : Buf α) (ts : List (Thr α Unit)) (he : exec sched (m, l.start) = .ok (m', ts))
      (hd : ∀ t ∈ ts, t.isRet = true) (hr : Out ls m' o) : Out (l :: ls) m o
  | bad {l ls m} (h : l.valid = true) (sched : List Nat) (he : exec sched (m, l.start) = .ub) : Out (l :: ls) m .ub

end Gpu

end Cnine

import Verif.Model.Index

/-!
# Model of ThreadGroup, MultiLoop and for_each_cell_multi

A group of threads is a transition system: one `Step` per atomic action of a thread, in any order.  Memory is
sequentially consistent (`nrunning` is `atomic<int>`).  The body of a task is one atomic action `f t` on the shared
memory, executed between the steps `start` and `finish`.  Exceptions in thread creation are not modelled, `int` is
unbounded.
-/

namespace Cnine

/-- Where a thread is inside `add`, holding `mx` (include/ThreadGroup.hpp:58-72). -/
inductive AddPc where
  /-- line 61, about to compare `nrunning` with `maxthreads` -/
  | check
  /-- line 63, about to evaluate the predicate of `wait` -/
  | test
  /-- line 63, the predicate was false, about to block -/
  | presleep
  /-- line 63, blocked in the condition variable -/
  | asleep
  /-- line 66 -/
  | inc
  /-- line 67 -/
  | spawn
  deriving Repr, DecidableEq

/-- Where a started thread is (include/ThreadGroup.hpp:67-71, 75-78). -/
inductive TaskPc where
  /-- created, line 68 -/
  | ready
  /-- line 69 -/
  | running
  /-- line 76, about to decrement -/
  | ran
  /-- line 77, about to notify -/
  | decd
  | ended
  deriving Repr, DecidableEq

/-- include/ThreadGroup.hpp:31-36 and the threads around it.  `cs`: the task and position of the thread holding `mx`.
`todo`: for each adding thread, the arguments of its calls of `add` still to be made.  `dtor`: how many threads the
destructor has joined, once it runs.  `mem`: the memory the tasks work on.  `log`: the finished tasks, in order. -/
structure TGroup (σ : Type _) where
  nrunning : Int
  cs : Option (Nat × AddPc)
  todo : List (List Nat)
  workers : List (Nat × TaskPc)
  dtor : Option Nat
  mem : σ
  log : List Nat

namespace TGroup

variable {σ : Type _}

/-- include/ThreadGroup.hpp:44-47: a new group, `calls` being the `add` calls of each thread. -/
def init (calls : List (List Nat)) (m : σ) : TGroup σ := ⟨0, none, calls, [], none, m, []⟩

/-- include/ThreadGroup.hpp:77: `notify_one` wakes the thread blocked in `wait`, if there is one (only the holder of `mx`
can be). -/
def wake : Option (Nat × AddPc) → Option (Nat × AddPc)
  | some (t, .asleep) => some (t, .test)
  | c => c

/-- The atomic actions other than spurious wake-ups. -/
inductive Act (f : Nat → σ → σ) (max : Int) : TGroup σ → TGroup σ → Prop
  /-- line 59: thread `a` calls `add(t)` and gets `mx` -/
  | enter (s : TGroup σ) (a t : Nat) (rest : List Nat) : s.dtor = none → s.cs = none → s.todo[a]? = some (t :: rest) →
      Act f max s { s with cs := some (t, .check), todo := s.todo.set a rest }
  /-- line 61, condition true -/
  | full (s : TGroup σ) (t : Nat) : s.cs = some (t, .check) → s.nrunning ≥ max →
      Act f max s { s with cs := some (t, .test) }
  /-- line 61, condition false -/
  | free (s : TGroup σ) (t : Nat) : s.cs = some (t, .check) → ¬ s.nrunning ≥ max →
      Act f max s { s with cs := some (t, .inc) }
  /-- line 63, predicate true -/
  | pass (s : TGroup σ) (t : Nat) : s.cs = some (t, .test) → s.nrunning < max →
      Act f max s { s with cs := some (t, .inc) }
  /-- line 63, predicate false -/
  | fail (s : TGroup σ) (t : Nat) : s.cs = some (t, .test) → ¬ s.nrunning < max →
      Act f max s { s with cs := some (t, .presleep) }
  /-- line 63, release of `start_thread_mx` and blocking (one atomic action) -/
  | block (s : TGroup σ) (t : Nat) : s.cs = some (t, .presleep) →
      Act f max s { s with cs := some (t, .asleep) }
  /-- line 66 -/
  | inc (s : TGroup σ) (t : Nat) : s.cs = some (t, .inc) →
      Act f max s { s with nrunning := s.nrunning + 1, cs := some (t, .spawn) }
  /-- lines 67-72: the thread is created, `mx` released -/
  | spawn (s : TGroup σ) (t : Nat) : s.cs = some (t, .spawn) →
      Act f max s { s with cs := none, workers := s.workers ++ [(t, .ready)] }
  /-- lines 68-69: the task begins -/
  | start (s : TGroup σ) (k t : Nat) : s.workers[k]? = some (t, .ready) →
      Act f max s { s with workers := s.workers.set k (t, .running) }
  /-- line 69: the task is done -/
  | finish (s : TGroup σ) (k t : Nat) : s.workers[k]? = some (t, .running) →
      Act f max s { s with workers := s.workers.set k (t, .ran), mem := f t s.mem, log := s.log ++ [t] }
  /-- line 76 -/
  | dec (s : TGroup σ) (k t : Nat) : s.workers[k]? = some (t, .ran) →
      Act f max s { s with workers := s.workers.set k (t, .decd), nrunning := s.nrunning - 1 }
  /-- line 77 -/
  | notify (s : TGroup σ) (k t : Nat) : s.workers[k]? = some (t, .decd) →
      Act f max s { s with workers := s.workers.set k (t, .ended), cs := wake s.cs }
  /-- line 49: the destructor begins, after all calls of `add` returned -/
  | destroy (s : TGroup σ) : s.dtor = none → s.cs = none → (∀ l ∈ s.todo, l = []) →
      Act f max s { s with dtor := some 0 }
  /-- line 51 -/
  | join (s : TGroup σ) (k t : Nat) : s.dtor = some k → s.workers[k]? = some (t, .ended) →
      Act f max s { s with dtor := some (k + 1) }

/-- All atomic actions: those above, and wake-ups without a notification, which the C++ standard allows. -/
inductive Step (f : Nat → σ → σ) (max : Int) : TGroup σ → TGroup σ → Prop
  | act {s s' : TGroup σ} : Act f max s s' → Step f max s s'
  | spurious (s : TGroup σ) (t : Nat) : s.cs = some (t, .asleep) → Step f max s { s with cs := some (t, .test) }

/-- The states that schedules lead to. -/
inductive Reach (f : Nat → σ → σ) (max : Int) (s : TGroup σ) : TGroup σ → Prop
  | refl : Reach f max s s
  | tail {a b : TGroup σ} : Reach f max s a → Step f max a b → Reach f max s b

/-- The destructor has returned (include/ThreadGroup.hpp:50-52). -/
def Done (s : TGroup σ) : Prop := s.dtor = some s.workers.length

end TGroup

/-- include/MultiLoop.hpp:28-39: `MultiLoop(n,lambda,sequential)` run by a thread whose `nthreads` is `T`, from memory `m`;
the possible memories (and orders of the finished rounds) when the constructor returns. -/
inductive MultiLoopRuns {σ : Type _} (f : Nat → σ → σ) (n : Nat) (seq : Bool) (T : Int) (m : σ) : σ → List Nat → Prop
  /-- lines 30-33 -/
  | sequential : (seq = true ∨ T ≤ 1) →
      MultiLoopRuns f n seq T m ((List.range n).foldl (fun m i => f i m) m) (List.range n)
  /-- lines 35-37 and the destructor at 39 -/
  | parallel (s : TGroup σ) : ¬ (seq = true ∨ T ≤ 1) → TGroup.Reach f T (TGroup.init [List.range n] m) s → s.Done →
      MultiLoopRuns f n seq T m s.mem s.log

/-- include/MultiLoop.hpp:28-39 with include/ThreadGroup.hpp:68: numbers `k` of innermost rounds that can be active at once
when loops of `ns` rounds are nested and the outermost is started by a thread whose `nthreads` is `T`. -/
inductive NestedActive : List Nat → Nat → Nat → Prop
  /-- the body of the innermost loop -/
  | body (T : Nat) : NestedActive [] T 1
  /-- before the first and after the last round -/
  | idle (ns : List Nat) (T : Nat) : NestedActive ns T 0
  /-- lines 30-33 -/
  | sequential (n : Nat) (ns : List Nat) (T k : Nat) : NestedActive ns T k → NestedActive (n :: ns) T k
  /-- lines 35-37: at most `T` of the `n` rounds at once, each with its own `nthreads` -/
  | parallel (n : Nat) (ns : List Nat) (T : Nat) (ks : List Nat) : ¬ T ≤ 1 → ks.length ≤ n → ks.length ≤ T →
      (∀ k ∈ ks, NestedActive ns (max 1 (T / n)) k) → NestedActive (n :: ns) T ks.sum

/-! ## tensors/functions/ForEachCellMulti.hpp -/

/-- The operand of `for_each_cell_multi` as lines 46-55 (and 92-107) of
tensors/functions/ForEachCellMulti.hpp see it: where it starts, the stride of the batch (0 if not batched),
and the strides of the grid (zeros without grid). -/
structure CellArg where
  arr : Nat
  bstride : Nat
  gstrides : List Nat
  deriving Repr, DecidableEq

/-- tensors/functions/ForEachCellMulti.hpp:61-62 (= 113-115): the address of cell `ix` of batch `b`. -/
def CellArg.cell (x : CellArg) (b : Nat) (ix : List Nat) : Res Nat := do
  let o ← offs x.gstrides ix
  .ok (x.arr + x.bstride * b + o)

/-- tensors/functions/ForEachCellMulti.hpp:60-62,112-115: the addresses of cell number `i` of batch `b` of all operands. -/
def cellPtrs (gdims : List Nat) (args : List CellArg) (b i : Nat) : Res (List Nat) := do
  let ix ← decode i gdims
  args.foldr (fun x acc => do let p ← x.cell b ix; let r ← acc; .ok (p :: r)) (.ok [])

/-- A thread of the loop at line 58 (= 110): batch `b`, round `i`; `k` is the number of cell pointers set in this round. -/
structure CellThread where
  b : Nat
  i : Nat
  k : Nat
  deriving Repr, DecidableEq

/-- The shared cell views (captured by reference, lines 58, 110) and the calls of the lambda: batch, cell number and the
pointers the views hold at the call. -/
structure CellState where
  ptrs : List Nat
  threads : List CellThread
  calls : List (Nat × Nat × List Nat)
  deriving Repr, DecidableEq

/-- tensors/functions/ForEachCellMulti.hpp:59-64 (= 111-117): one action of one thread; `P b i` are the addresses of the
cells.  Either the next pointer is assigned, or the lambda is called with the views as they are. -/
inductive CellStep (P : Nat → Nat → List Nat) (ncells : Nat) : CellState → CellState → Prop
  | assign (s : CellState) (j b i k p : Nat) : s.threads[j]? = some ⟨b, i, k⟩ → i < ncells → (P b i)[k]? = some p →
      CellStep P ncells s { s with ptrs := s.ptrs.set k p, threads := s.threads.set j ⟨b, i, k + 1⟩ }
  | call (s : CellState) (j b i k : Nat) : s.threads[j]? = some ⟨b, i, k⟩ → i < ncells → k = (P b i).length →
      CellStep P ncells s { s with threads := s.threads.set j ⟨b, i + 1, 0⟩, calls := s.calls ++ [(b, i, s.ptrs)] }

/-- The states reached by any schedule of the threads. -/
inductive CellReach (P : Nat → Nat → List Nat) (ncells : Nat) (s : CellState) : CellState → Prop
  | refl : CellReach P ncells s s
  | tail {a b : CellState} : CellReach P ncells s a → CellStep P ncells a b → CellReach P ncells s b

/-- tensors/functions/ForEachCellMulti.hpp:58-65 when `sequential` (35,81) or with one thread (include/MultiLoop.hpp:30-33): the
batches `bs` one after the other, from views holding `ptrs`. -/
inductive CellSeq (P : Nat → Nat → List Nat) (ncells : Nat) :
    List Nat → List Nat → List (Nat × Nat × List Nat) → List (Nat × Nat × List Nat) → Prop
  | nil (ptrs : List Nat) (calls : List (Nat × Nat × List Nat)) : CellSeq P ncells [] ptrs calls calls
  | cons (b : Nat) (bs ptrs ptrs' : List Nat) (calls calls' out : List (Nat × Nat × List Nat)) :
      CellReach P ncells ⟨ptrs, [⟨b, 0, 0⟩], calls⟩ ⟨ptrs', [⟨b, ncells, 0⟩], calls'⟩ → CellSeq P ncells bs ptrs' calls' out →
      CellSeq P ncells (b :: bs) ptrs calls out

end Cnine

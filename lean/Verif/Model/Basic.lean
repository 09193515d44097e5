/-!
# Outcomes of C++ calls and checked memory

`Res` distinguishes normal return, C++ exception and undefined behaviour.
`CNINE_ASSRT` (include/Cnine_base.hpp) throws unconditionally, so a failed assertion is `throw`.
-/

namespace Cnine

/-- Outcome of a C++ call: a value, a C++ exception, or undefined behaviour. -/
inductive Res (α : Type _) where
  | ok (a : α)
  | throw
  | ub
  deriving Repr, DecidableEq

namespace Res

def bind {α β} (x : Res α) (f : α → Res β) : Res β :=
  match x with
  | ok a => f a
  | throw => throw
  | ub => ub

instance : Monad Res where
  pure := Res.ok
  bind := Res.bind

@[simp] theorem ok_bind {α β} (a : α) (f : α → Res β) : (Res.ok a >>= f) = f a := rfl
@[simp] theorem throw_bind {α β} (f : α → Res β) : ((Res.throw : Res α) >>= f) = Res.throw := rfl
@[simp] theorem ub_bind {α β} (f : α → Res β) : ((Res.ub : Res α) >>= f) = Res.ub := rfl
@[simp] theorem pure_eq {α} (a : α) : (pure a : Res α) = Res.ok a := rfl

theorem bind_eq_ok {α β} {x : Res α} {f : α → Res β} {b : β} :
    (x >>= f) = ok b ↔ ∃ a, x = ok a ∧ f a = ok b := by
  cases x with
  | ok a =>
    constructor
    · intro h; exact ⟨a, rfl, h⟩
    · rintro ⟨a', h, h'⟩; cases h; exact h'
  | throw => constructor <;> intro h; · cases h
             · obtain ⟨_, h, _⟩ := h; cases h
  | ub => constructor <;> intro h; · cases h
          · obtain ⟨_, h, _⟩ := h; cases h

/-- `CNINE_ASSRT(cond)` (include/Cnine_base.hpp): throws when the condition fails. -/
def assrt (c : Bool) : Res Unit := if c then ok () else throw

/-- Access that is undefined behaviour when the condition fails. -/
def need (c : Bool) : Res Unit := if c then ok () else ub

@[simp] theorem assrt_true : assrt true = ok () := rfl
@[simp] theorem assrt_false : assrt false = throw := rfl
@[simp] theorem need_true : need true = ok () := rfl
@[simp] theorem need_false : need false = ub := rfl

/-- `std::vector::operator[]`: undefined behaviour out of range. -/
def get {α} (l : List α) (i : Nat) : Res α :=
  match l[i]? with
  | some a => ok a
  | none => ub

/-- Sequencing of a loop body over a list (a C++ `for`). -/
def forM {σ α} (l : List α) (s : σ) (f : σ → α → Res σ) : Res σ :=
  match l with
  | [] => ok s
  | a :: l => f s a >>= fun s' => forM l s' f

@[simp] theorem forM_nil {σ α} (s : σ) (f : σ → α → Res σ) : forM [] s f = ok s := rfl
@[simp] theorem forM_cons {σ α} (a : α) (l : List α) (s : σ) (f : σ → α → Res σ) :
    forM (a :: l) s f = (f s a >>= fun s' => forM l s' f) := rfl

theorem forM_append {σ α} (l₁ l₂ : List α) (s : σ) (f : σ → α → Res σ) :
    forM (l₁ ++ l₂) s f = (forM l₁ s f >>= fun s' => forM l₂ s' f) := by
  induction l₁ generalizing s with
  | nil => rfl
  | cons a l ih =>
    simp only [List.cons_append, forM_cons]
    cases f s a with
    | ok s' => simp [ih]
    | throw => rfl
    | ub => rfl

end Res

/-- A memory: each cell number holds a value, or is not allocated (`none`).
Models the `TYPE*` buffers behind `MemArr`/`MemBlob` (include/MemArr.hpp, include/MemBlob.hpp);
all buffers live in one address space. -/
abbrev Buf (α : Type _) := Nat → Option α

namespace Buf

/-- `*p` as an rvalue. -/
def read {α} (m : Buf α) (a : Nat) : Res α :=
  match m a with
  | some v => Res.ok v
  | none => Res.ub

/-- `*p = v`. -/
def write {α} (m : Buf α) (a : Nat) (v : α) : Res (Buf α) :=
  match m a with
  | some _ => Res.ok (fun b => if b = a then some v else m b)
  | none => Res.ub

/-- A buffer holding exactly the listed values at cells `0..l.length-1`. -/
def ofList {α} (l : List α) : Buf α := fun a => l[a]?

end Buf

end Cnine

import Verif.Py.Num
/-
Effects: a computation that updates a state and may raise.
-/
namespace S2N

/-- Final state and the exception raised, if any.  The state is kept on an
exception, as Python objects keep the updates made before a raise. -/
abbrev Res (σ : Type) := σ × Option PyErr

namespace Res
variable {σ : Type}

/-- normal completion -/
def ok (s : σ) : Res σ := (s, none)

/-- raise `e` leaving state `s` -/
def raise (s : σ) (e : PyErr) : Res σ := (s, some e)

/-- sequential composition -/
def andThen (r : Res σ) (f : σ → Res σ) : Res σ :=
  match r.2 with
  | none => f r.1
  | some _ => r

/-- evaluate an expression that may raise, then continue -/
def eval {α : Type} (x : Except PyErr α) (s : σ) (f : α → Res σ) : Res σ :=
  match x with
  | .ok a => f a
  | .error e => (s, some e)

@[simp] theorem ok_fst (s : σ) : (ok s).1 = s := rfl
@[simp] theorem ok_snd (s : σ) : (ok s).2 = none := rfl
@[simp] theorem raise_fst (s : σ) (e : PyErr) : (raise s e).1 = s := rfl
@[simp] theorem raise_snd (s : σ) (e : PyErr) : (raise s e).2 = some e := rfl
@[simp] theorem eval_ok {α : Type} (a : α) (s : σ) (f : α → Res σ) : eval (.ok a) s f = f a := rfl
@[simp] theorem eval_error {α : Type} (e : PyErr) (s : σ) (f : α → Res σ) :
    eval (.error e) s f = raise s e := rfl

theorem andThen_of_none {r : Res σ} (h : r.2 = none) (f : σ → Res σ) :
    r.andThen f = f r.1 := by simp [andThen, h]

theorem andThen_of_some {r : Res σ} {e : PyErr} (h : r.2 = some e) (f : σ → Res σ) :
    r.andThen f = r := by simp [andThen, h]

@[simp] theorem ok_andThen (s : σ) (f : σ → Res σ) : (ok s).andThen f = f s := rfl
@[simp] theorem raise_andThen (s : σ) (e : PyErr) (f : σ → Res σ) :
    (raise s e).andThen f = raise s e := rfl

end Res
end S2N

import Verif.Model.Py

/-!
# Inverting successful computations
-/

namespace HV

theorem bind_ok {α β : Type} {x : Res α} {f : α → Res β} {b : β} :
    (x >>= f) = .ok b ↔ ∃ a, x = .ok a ∧ f a = .ok b := by
  cases x with
  | error e => simp [bind, Except.bind]
  | ok a => simp [bind, Except.bind]

theorem pure_ok {α : Type} {a b : α} : (pure a : Res α) = .ok b ↔ a = b := by
  simp [pure, Except.pure]

theorem ok_bind {α β : Type} {a : α} {f : α → Res β} : ((.ok a : Res α) >>= f) = f a := rfl

theorem error_bind {α β : Type} {e : PyErr} {f : α → Res β} : ((.error e : Res α) >>= f) = .error e := rfl

theorem pure_eq {α : Type} {a : α} : (pure a : Res α) = .ok a := rfl

theorem throw_eq {α : Type} {e : PyErr} : (throw e : Res α) = .error e := rfl

end HV

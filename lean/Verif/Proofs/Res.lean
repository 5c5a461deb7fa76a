import Verif.Model.Basic

namespace Verif

theorem ok_bind {α β : Type u} (a : α) (f : α → Res β) : ((Except.ok a : Res α) >>= f) = f a := rfl
theorem error_bind {α β : Type u} (e : Fault) (f : α → Res β) : ((Except.error e : Res α) >>= f) = .error e := rfl
theorem pure_eq_ok {α : Type u} (a : α) : (pure a : Res α) = .ok a := rfl
theorem geoAssert_true (dbg : Bool) : geoAssert.{u} dbg true = .ok ⟨⟩ := by cases dbg <;> rfl
theorem geoAssert_release (c : Bool) : geoAssert.{u} false c = .ok ⟨⟩ := rfl
theorem geoAssert_debug_false : geoAssert.{u} true false = .error .assertFailed := rfl

theorem geoAssert_bind {β : Type u} (dbg c : Bool) (f : PUnit.{u+1} → Res β) :
    (geoAssert dbg c >>= f) = if dbg && !c then .error .assertFailed else f ⟨⟩ := by
  cases dbg <;> cases c <;> rfl

end Verif

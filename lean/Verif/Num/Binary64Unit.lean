import Verif.Num.Unit
import Verif.Num.Binary64

/-! # Correctly rounded binary64 satisfies `UnitLaws` -/

namespace Visqol
namespace B64

instance : UnitLaws B64 where
  mul_one a b x ha hb := by
    have ha' : a.val = .fin x := ha
    have hr := a.rep
    rw [ha'] at hr
    have h1 : Ieee.val (a * b) = Ieee.rnd B64 (x * 1) := by rw [Ieee.val_mul, ha, hb]; rfl
    rw [mul_one] at h1
    have h2 : (a * b).val = .fin x := by
      have h3 : (a * b).val = rnd x := h1
      rw [h3]; exact rnd_of_rep hr
    cases a with
    | mk v hv =>
      generalize hc : (⟨v, hv⟩ : B64) * b = c at h2
      cases c with
      | mk u hu =>
        have e1 : u = .fin x := h2
        have e2 : v = .fin x := ha'
        subst e1; subst e2; rfl
  powf_zero a b x ha hb := by
    have ha' : a.val = .fin x := ha
    have hb' : b.val = .fin 0 := hb
    change (powf a b).val = _
    unfold powf
    rw [ha', hb']
    change rnd (x ^ (0 : ℝ)) = _
    rw [Real.rpow_zero]
    exact rnd_of_rep rep_one

end B64
end Visqol

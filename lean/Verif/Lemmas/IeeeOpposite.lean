import Verif.Num.Bits
import Verif.Lemmas.IeeeSpectro
import Verif.Lemmas.IeeeSelfRun

/-! # A signal and its inverse in floating point: filters are odd, energies and levels agree bit for bit -/

set_option linter.unusedSectionVars false

namespace Visqol
open Ieee

theorem Val.add_neg {r : ℝ → Val} (hr : ∀ x, r (-x) = (r x).neg) (a b : Val) : a.neg.add r b.neg = (a.add r b).neg := by
  cases a with
  | nan => rfl
  | inf s =>
    cases b with
    | nan => rfl
    | inf t => cases s <;> cases t <;> simp [Val.neg, Val.add]
    | fin y => rfl
  | fin x =>
    cases b with
    | nan => rfl
    | inf t => rfl
    | fin y =>
      show r (-x + -y) = (r (x + y)).neg
      rw [← hr, neg_add]

theorem Val.mul_neg {r : ℝ → Val} (hr : ∀ x, r (-x) = (r x).neg) (a b : Val) : a.mul r b.neg = (a.mul r b).neg := by
  have hs : ∀ x : ℝ, x ≠ 0 → decide (-x < 0) = !decide (x < 0) := by
    intro x hx
    rcases lt_or_gt_of_ne hx with h | h
    · simp [h, h.le]
    · simp [h, h.le]
  cases a with
  | nan => rfl
  | inf s =>
    cases b with
    | nan => rfl
    | inf t => cases s <;> cases t <;> rfl
    | fin y =>
      show (if -y = 0 then Val.nan else .inf (s != decide (-y < 0))) = (if y = 0 then Val.nan else .inf (s != decide (y < 0))).neg
      by_cases h : y = 0
      · rw [if_pos h, if_pos (by rw [h, neg_zero])]; rfl
      · rw [if_neg h, if_neg (neg_ne_zero.mpr h), hs y h]
        show Val.inf _ = Val.inf _
        cases s <;> cases decide (y < 0) <;> rfl
  | fin x =>
    cases b with
    | nan => rfl
    | inf t =>
      show (if x = 0 then Val.nan else .inf ((!t) != decide (x < 0))) = (if x = 0 then Val.nan else .inf (t != decide (x < 0))).neg
      by_cases h : x = 0
      · rw [if_pos h, if_pos h]; rfl
      · rw [if_neg h, if_neg h]
        show Val.inf _ = Val.inf _
        cases t <;> cases decide (x < 0) <;> rfl
    | fin y =>
      show r (x * -y) = (r (x * y)).neg
      rw [← hr, _root_.mul_neg]

variable {F : Type} [Flt F] [Ieee F]

/-- `b` is `-a`, up to the sign of a zero. -/
def Opp (a b : F) : Prop := val b = (val a).neg

theorem Opp.zero : Opp (0.0 : F) 0.0 := by
  unfold Opp
  rw [val_0]
  show Val.fin 0 = .fin (-0)
  rw [neg_zero]

theorem Opp.neg (a : F) : Opp a (-a) := val_neg a

theorem Opp.is {a b : F} (h : Opp a b) {x : ℝ} (ha : Is a x) : Is b (-x) := by
  unfold Is at *
  rw [h, ha]; rfl

variable [BitLaws F]

theorem Opp.add {a b c d : F} (h1 : Opp a b) (h2 : Opp c d) : Opp (a + c) (b + d) := by
  unfold Opp at *
  rw [val_add, val_add, h1, h2, Val.add_neg BitLaws.rnd_neg]

theorem Opp.sub {a b c d : F} (h1 : Opp a b) (h2 : Opp c d) : Opp (a - c) (b - d) := by
  unfold Opp at *
  rw [val_sub, val_sub, h1, h2, Val.add_neg BitLaws.rnd_neg]

theorem Opp.mul (k : F) {a b : F} (h : Opp a b) : Opp (k * a) (k * b) := by
  unfold Opp at *
  rw [val_mul, val_mul, h, Val.mul_neg BitLaws.rnd_neg]

theorem filterSignal_opp (num den : Taps F) : ∀ {l l' : List F} {z z' : F × F}, List.Forall₂ Opp l l' → Opp z.1 z'.1 → Opp z.2 z'.2 →
    List.Forall₂ Opp (filterSignal num den l z).1 (filterSignal num den l' z').1
  | _, _, _, _, .nil, _, _ => .nil
  | _, _, _, _, .cons h hl, h1, h2 => by
    have hy := (h.mul num.c0).add h1
    rw [filterSignal, filterSignal]
    exact .cons hy (filterSignal_opp num den hl (((h.mul num.c1).add h2).sub (hy.mul den.c1)) ((h.mul num.c2).sub (hy.mul den.c2)))

theorem cascade_opp (c : BandCoeffs F) {l l' : List F} (h : List.Forall₂ Opp l l') : List.Forall₂ Opp (cascade c l) (cascade c l') := by
  unfold cascade
  dsimp only
  exact filterSignal_opp _ _ (filterSignal_opp _ _ (filterSignal_opp _ _ (filterSignal_opp _ _ h .zero .zero) .zero .zero) .zero .zero) .zero .zero

theorem squares_opp {n : ℕ} {l l' : List F} (h : List.Forall₂ Opp l l') (hp : ∀ x ∈ l, Pw n x) :
    l'.map (fun e => e * e) = l.map fun e => e * e := by
  induction h with
  | nil => rfl
  | cons h _ ih =>
    rw [List.map_cons, List.map_cons, ih fun x hx => hp x (List.mem_cons_of_mem _ hx)]
    obtain ⟨x, hx, _⟩ := hp _ List.mem_cons_self
    rw [BitLaws.square _ _ x hx (h.is hx)]

theorem bandEnergy_opp {c : BandCoeffs F} (hc : TameBand c) {m : ℕ} {l l' : List F} (h : List.Forall₂ Opp l l') (hx : ∀ x ∈ l, Pw m x)
    (hn : l.length ≤ 2 ^ 17) (hm : m ≤ 300) : bandEnergy c l' = bandEnergy c l := by
  unfold bandEnergy
  rw [squares_opp (cascade_opp c h) (cascade_pw hc hx hn hm).1, h.length_eq]

theorem spectroMat_opp {nb : ℕ} {f : F} {s s' : AudioSignal F} {w : AnalysisWindow F} (hb : TameBank nb s.sampleRate f)
    (h : List.Forall₂ Opp s.data s'.data) (hr : s'.sampleRate = s.sampleRate) {m : ℕ} (hm : m ≤ 300) (hx : ∀ x ∈ s.data, Pw m x)
    (hw : w.size ≤ 2 ^ 17) : spectroMat nb f s' w = spectroMat nb f s w := by
  unfold spectroMat
  rw [← h.length_eq, hr]
  congr 1
  refine List.map_congr_left fun c hc => List.map_congr_left fun j _ => ?_
  unfold frameAt
  refine bandEnergy_opp (hb c hc) (List.forall₂_take _ (List.forall₂_drop _ h)) (m := m) (fun x hx' => hx x ?_) ?_ hm
  · exact List.mem_of_mem_drop (List.mem_of_mem_take hx')
  · rw [List.length_take]; omega

/-- Matching the level of the inverse of a signal to the signal leaves it as it is. -/
theorem scale_opp [UnitLaws F] {s s' : AudioSignal F} (h : List.Forall₂ Opp s.data s'.data) (hs : ∀ a ∈ s.data, Pw 1 a)
    (hl : s.data.length ≤ 2 ^ 31) (hloud : ∃ a ∈ s.data, ∃ v, Is a v ∧ 1 / 2 ^ 40 ≤ |v|) : scaleToMatchSpl s s' = s' := by
  obtain ⟨a, ha, v, hv, hv1⟩ := hloud
  have hne : s.data ≠ [] := fun h => by rw [h] at ha; cases ha
  have hspl : soundPressureLevel s'.data = soundPressureLevel s.data := by
    unfold soundPressureLevel
    rw [squares_opp h hs, h.length_eq]
  rcases spl_bounds hs hl hne with ⟨_, h⟩ | ⟨L, hL, _⟩
  · exact absurd hv1 (h a ha v hv)
  · have h1 : Is (soundPressureLevel s.data - soundPressureLevel s.data) 0 := by
      refine (Is.sub hL hL).trans ?_
      rw [sub_self, rnd_zero]
    have h2 : Is ((soundPressureLevel s.data - soundPressureLevel s.data) / 20.0) 0 := by
      refine (Is.div h1 (show Is (20.0 : F) 20 from val_20) (by norm_num)).trans ?_
      rw [zero_div, rnd_zero]
    have h3 := UnitLaws.powf_zero (F := F) 10.0 _ 10 val_10 h2
    unfold scaleToMatchSpl
    dsimp only
    rw [hspl]
    have h4 : s'.data.map (· * Flt.powf 10.0 ((soundPressureLevel s.data - soundPressureLevel s.data) / 20.0)) = s'.data := by
      conv_rhs => rw [← List.map_id s'.data]
      refine List.map_congr_left fun b hb => ?_
      obtain ⟨i, hi, rfl⟩ := List.getElem_of_mem hb
      have hi' : i < s.data.length := by rw [h.length_eq]; exact hi
      obtain ⟨x, hx, _⟩ := hs _ (List.getElem_mem hi')
      exact UnitLaws.mul_one _ _ (-x) (((List.forall₂_iff_get.mp h).2 i hi' hi).is hx) h3
    rw [h4]

end Visqol

import Verif.Lemmas.IeeeCompare
import Verif.Props.Loading

/-! # Floating point: loading a file -/

namespace Visqol
open Ieee
variable {F : Type} [Flt F] [Ieee F]

/-- A 16 bit sample over 32767. -/
theorem sample_near {x : Int} (h : IsI16 x) : ∃ y, val (Flt.ofInt x / 32767.0 : F) = .fin y ∧ |y - (x : ℝ) / 32767| ≤ 1 / 2 ^ 50 := by
  have h1 : Is (Flt.ofInt x : F) x := by
    unfold Is
    obtain ⟨a, b⟩ := h
    rw [val_ofInt, rnd_int F (by rw [abs_le]; constructor <;> omega)]
  have h2 : Is (32767.0 : F) 32767 := by
    have := val_litnat (F := F) (m := 327670) (e := 1) (k := 32767) (by norm_num) (by norm_num)
    unfold Is
    rw [this]
    norm_num
  rw [Is.div h1 h2 (by norm_num)]
  have hb : |(x : ℝ) / 32767| ≤ 2 := by
    have hk1 : (-32768 : ℝ) ≤ x := by exact_mod_cast h.1
    have hk2 : (x : ℝ) ≤ 32767 := by exact_mod_cast h.2
    rw [abs_le]; constructor
    · rw [le_div_iff₀ (by norm_num)]; linarith
    · rw [div_le_iff₀ (by norm_num)]; linarith
  obtain ⟨y, e, hy⟩ := rnd_err F hb (by norm_num) (by
    have := two_pow_mono (m := 1) (n := 1000) (by norm_num)
    rwa [pow_one] at this)
  exact ⟨y, e, hy.trans (by norm_num)⟩

theorem frame_near {s : List Int} (hs : ∀ x ∈ s, IsI16 x) : ∃ xs : List ℝ,
    (s.map fun x => (Flt.ofInt x / 32767.0 : F)).map val = xs.map .fin ∧ (∀ x ∈ xs, |x| ≤ 2) ∧
      |xs.sum - (s.map fun x : Int => (x : ℝ) / 32767).sum| ≤ s.length / 2 ^ 50 := by
  induction s with
  | nil => exact ⟨[], rfl, by simp, by simp⟩
  | cons a l ih =>
    obtain ⟨xs, e, b, d⟩ := ih fun x hx => hs x (List.mem_cons_of_mem _ hx)
    obtain ⟨y, hy, hd⟩ := sample_near (F := F) (hs a List.mem_cons_self)
    refine ⟨y :: xs, by rw [List.map_cons, List.map_cons, List.map_cons, e, hy], fun x hx => ?_, ?_⟩
    · rcases List.mem_cons.mp hx with rfl | hx
      · have ha := hs a List.mem_cons_self
        have hk1 : (-32768 : ℝ) ≤ a := by exact_mod_cast ha.1
        have hk2 : (a : ℝ) ≤ 32767 := by exact_mod_cast ha.2
        have h1 : -(32768 / 32767) ≤ (a : ℝ) / 32767 := by rw [← neg_div, div_le_div_iff_of_pos_right (by norm_num)]; linarith
        have h2 : (a : ℝ) / 32767 ≤ 1 := by rw [div_le_iff₀ (by norm_num)]; linarith
        have d1 := (abs_le.mp hd).1
        have d2 := (abs_le.mp hd).2
        norm_num at d1 d2 h1
        rw [abs_le]; constructor <;> linarith
      · exact b x hx
    · rw [List.sum_cons, List.map_cons, List.sum_cons, List.length_cons]
      push_cast
      rw [show y + xs.sum - ((a : ℝ) / 32767 + (l.map fun x : Int => (x : ℝ) / 32767).sum) =
        y - (a : ℝ) / 32767 + (xs.sum - (l.map fun x : Int => (x : ℝ) / 32767).sum) by ring]
      refine (abs_add_le _ _).trans ?_
      rw [add_div, add_comm]
      linarith

/-- The mean of a frame of 16 bit samples, as the file is loaded. -/
theorem mean_near [Libm F] {s : List Int} (hs : ∀ x ∈ s, IsI16 x) (h0 : 0 < s.length) (h1 : s.length < 65536) :
    ∃ y, val (Flt.sum (s.map fun x => (Flt.ofInt x / 32767.0 : F)) / Flt.ofNat s.length) = .fin y ∧
      |y - (s.map fun x : Int => (x : ℝ) / 32767).sum / s.length| ≤ ((s.length : ℝ) + 1) / 2 ^ 49 ∧
      |(s.map fun x : Int => (x : ℝ) / 32767).sum / s.length| ≤ 32768 / 32767 := by
  obtain ⟨xs, e, b, d⟩ := frame_near (F := F) hs
  obtain ⟨y, hy, he⟩ := Libm.sum_acc _ xs 2 e (by norm_num) (by
    have := two_pow_mono (m := 1) (n := 900) (by norm_num)
    rwa [pow_one] at this) b (by rw [List.length_map]; omega)
  rw [List.length_map] at he
  have hc1 : (1 : ℝ) ≤ s.length := by exact_mod_cast h0
  have hc2 : (s.length : ℝ) ≤ 65535 := by exact_mod_cast (by omega : s.length ≤ 65535)
  have hE : |(s.map fun x : Int => (x : ℝ) / 32767).sum| ≤ s.length * (32768 / 32767) := by
    clear d he e hy h0 h1 hc1 hc2
    induction s with
    | nil => simp
    | cons a l ih =>
      rw [List.map_cons, List.sum_cons, List.length_cons]
      push_cast
      have ha := hs a List.mem_cons_self
      have hk1 : (-32768 : ℝ) ≤ a := by exact_mod_cast ha.1
      have hk2 : (a : ℝ) ≤ 32767 := by exact_mod_cast ha.2
      have h3 : |(a : ℝ) / 32767| ≤ 32768 / 32767 := by
        rw [abs_div, show |(32767 : ℝ)| = 32767 by norm_num, div_le_div_iff_of_pos_right (by norm_num), abs_le]
        constructor <;> linarith
      have := ih (fun x hx => hs x (List.mem_cons_of_mem _ hx))
      exact (abs_add_le _ _).trans (by linarith)
  generalize (s.map fun x : Int => (x : ℝ) / 32767).sum = E at *
  generalize hc : (s.length : ℝ) = c at *
  have hcp : 0 < c := by linarith
  have hyE : |y - E| ≤ c * (2 * c / 2 ^ 50 + 1 / 2 ^ 50) := by
    have := abs_add_le (y - xs.sum) (xs.sum - E)
    rw [sub_add_sub_cancel] at this
    have e1 : c * (2 * c / 2 ^ 50 + 1 / 2 ^ 50) = c ^ 2 * 2 / 2 ^ 50 + c / 2 ^ 50 := by ring
    rw [e1]
    linarith
  have hm : |E / c| ≤ 32768 / 32767 := by
    rw [abs_div, abs_of_pos hcp, div_le_iff₀ hcp]
    linarith
  have hd : |y / c - E / c| ≤ 2 * c / 2 ^ 50 + 1 / 2 ^ 50 := by
    rw [← sub_div, abs_div, abs_of_pos hcp, div_le_iff₀ hcp]
    linarith
  have hB : |y / c| ≤ 2 := by
    have := abs_add_le (y / c - E / c) (E / c)
    rw [sub_add_cancel] at this
    have h5 : 2 * c / 2 ^ 50 ≤ 2 * 65535 / 2 ^ 50 := by gcongr
    norm_num at *
    linarith
  obtain ⟨z, hz, hze⟩ := rnd_err F hB (by norm_num) (by
    have := two_pow_mono (m := 1) (n := 1000) (by norm_num)
    rwa [pow_one] at this)
  have hcv : Is (Flt.ofNat s.length : F) c := by
    unfold Is
    rw [val_ofNat, rnd_nat F (by omega), hc]
  refine ⟨z, by rw [Is.div (show Is _ y from hy) hcv hcp.ne', hz], ?_, hm⟩
  have := abs_add_le (z - y / c) (y / c - E / c)
  rw [sub_add_sub_cancel] at this
  have e2 : (c + 1) / 2 ^ 49 = 2 * c / 2 ^ 50 + 1 / 2 ^ 50 + 2 / 2 ^ 51 := by ring
  rw [e2]
  linarith

end Visqol

import Verif.Props.Self
import Verif.Props.Count
import Verif.Props.NoFailure

/-! # C76: long files at rates whose window is not a multiple of four samples -/

set_option linter.unusedSectionVars false

namespace Visqol

/-- C76: if one of the reference patches of a fullband comparison (number `k`, from column `9 + 20 k` on) lies, counted in unrounded quarter
windows, behind the end of the signal, then comparing the signal with itself gives no result. -/
theorem C76_self_fails {m : Manager ℝ} {ref : AudioSignal ℝ} (hm : m.patchCreator = .image 20) (h50 : 50 ≤ ref.sampleRate)
    (hu32 : ref.sampleRate < 4294967296) (hlen : ref.data.length + 30 * m.searchWindow < 2147483647) {k : ℕ}
    (hk : 9 + 20 * k + 21 < columnCount ref.sampleRate ref.data.length)
    (hlate : ref.data.length < (9 + 20 * k) * windowSamples ref.sampleRate / 4) (p : Profile) :
    ∀ r, m.computeResults p ref ref ≠ .ok r := by
  rintro ⟨m', res⟩ h
  obtain ⟨nb, sw, pc, mapper, fb⟩ := m
  simp only at hm hlen
  subst hm
  obtain ⟨f1, f2, f3⟩ := window_facts (sr := ref.sampleRate) h50 hu32
  have h9 : 9 ≤ ref.data.length := by
    unfold columnCount at hk
    have := Nat.div_le_self (ref.data.length - windowSamples ref.sampleRate) (windowSamples ref.sampleRate / 4)
    omega
  have hself := globallyAlign_self p h9 (by omega)
  obtain ⟨al, lag, hal, hcount⟩ := C64_count rfl (by omega) h
  rw [hself] at hal
  cases hal
  obtain ⟨al, lag, hal, st, h62⟩ := C62_starts_inside h (by omega) (show 0 < 20 by decide) (by omega)
  rw [hself] at hal
  cases hal
  have hcols : numColumns ref.data.length (AnalysisWindow.mk' (F := ℝ) ref.sampleRate 0.25 0.08).size
      (AnalysisWindow.mk' (F := ℝ) ref.sampleRate 0.25 0.08).hop = columnCount ref.sampleRate ref.data.length := by
    rw [f1, f2]; unfold numColumns columnCount; omega
  rw [hcols] at hcount
  have hkl := (hcount k).mpr ⟨hk, by omega⟩
  obtain ⟨_, hl, _⟩ := st.patches_ok
  have hkc : st.coarse[k]? = some (st.coarse[k]'(by omega)) := List.getElem?_eq_getElem _
  rcases h62 k _ hkc with hu | ⟨i, o, hi, _, hle, _⟩
  · have h1 := (st.self_coarse (.inr rfl) hlen k _ hkc).1
    rw [hu.similarity, real_lit0] at h1
    norm_num at h1
  · obtain ⟨_, _, _, _, h5, _⟩ := st.shapes
    rw [hcols] at h5
    obtain ⟨n, _, k1, _, _⟩ := C25_tiling p (m := st.refM) (by omega) ref (AnalysisWindow.mk' ref.sampleRate 0.25 0.08)
    have hix := st.ixs
    dsimp only at hix
    rw [k1] at hix
    rw [← Except.ok.inj hix, List.getElem?_map] at hi
    obtain ⟨j, hj, rfl⟩ := Option.map_eq_some_iff.mp hi
    obtain rfl : j = k := by
      obtain ⟨hlt, hj⟩ := List.getElem?_eq_some_iff.mp hj
      rw [List.getElem_range] at hj
      exact hj.symm
    rw [f1] at hle
    omega

/-- C76: at 11025 Hz no fullband comparison of a file of 400 s or more with itself gives a result. -/
theorem C76_11025 {m : Manager ℝ} {ref : AudioSignal ℝ} (hm : m.patchCreator = .image 20) (hsr : ref.sampleRate = 11025)
    (hlong : 400 * 11025 ≤ ref.data.length) (hlen : ref.data.length + 30 * m.searchWindow < 2147483647) (p : Profile) :
    ∀ r, m.computeResults p ref ref ≠ .ok r := by
  have hc : columnCount ref.sampleRate ref.data.length = (ref.data.length - 882) / 220 + 1 := by rw [hsr]; rfl
  have hw : windowSamples ref.sampleRate = 882 := by rw [hsr]; rfl
  refine C76_self_fails hm (by omega) (by omega) hlen (k := (columnCount ref.sampleRate ref.data.length - 31) / 20) ?_ ?_ p
  · omega
  · rw [hc, hw]; omega

/-- Seven minutes at 11025 Hz. -/
example : (⟨List.replicate 4630500 1, 11025⟩ : AudioSignal ℝ).sampleRate = 11025 ∧
    400 * 11025 ≤ (⟨List.replicate 4630500 1, 11025⟩ : AudioSignal ℝ).data.length ∧
    (⟨List.replicate 4630500 1, 11025⟩ : AudioSignal ℝ).data.length + 30 * 60 < 2147483647 := by
  refine ⟨rfl, ?_, ?_⟩ <;> simp only [List.length_replicate] <;> norm_num

end Visqol

import Verif.Lemmas.Patches
import Verif.Lemmas.Errors
import Verif.Num.Dft

/-! # Loading WAV files (C17, C18) -/

set_option linter.unusedSectionVars false

namespace Visqol

/-- A 16-bit sample value. -/
def IsI16 (x : Int) : Prop := -32768 ≤ x ∧ x ≤ 32767

section any
variable {F : Type} [Flt F]

theorem wrapI16_of_mem {x : Int} (h : IsI16 x) : wrapI16 x = x := by
  obtain ⟨h1, h2⟩ := h
  unfold wrapI16
  rw [Int.bmod_eq_of_le] <;> omega

theorem map_wrapI16 {s : List Int} (h : ∀ x ∈ s, IsI16 x) : s.map wrapI16 = s := by
  conv_rhs => rw [← List.map_id s]
  exact List.map_congr_left fun x hx => wrapI16_of_mem (h x hx)

/-! ## C17 -/

/-- C17: a header with any other bit depth gives `InvalidBitsPerSample` with that depth; the samples do not matter and need
not even be readable. -/
theorem C17_only_16_bit (ch sr bits : Nat) (samples : Option (List Int)) (h : bits ≠ 16) :
    WavFile.open (.wav ch sr bits samples) = .error (.err (.invalidBitsPerSample bits)) := by
  simp only [WavFile.open, if_pos h]

/-- C17, converse: that error is only returned for such a header. -/
theorem C17_only_then {c : WavContent} {bits : Nat} (h : WavFile.open c = .error (.err (.invalidBitsPerSample bits))) :
    ∃ ch sr s, c = .wav ch sr bits s ∧ bits ≠ 16 := by
  cases c with
  | unreadable => cases h
  | wav ch sr b s =>
    unfold WavFile.open at h
    dsimp only at h
    split at h
    · cases h; exact ⟨ch, sr, s, rfl, ‹_›⟩
    · rcases bind_error h with h1 | ⟨x, h1, h⟩
      · cases s <;> cases h1
      · cases h

/-- C17: a 16-bit file keeps every sample, the channel count and the rate. -/
theorem C17_samples_kept (ch sr : Nat) (s : List Int) (h : ∀ x ∈ s, IsI16 x) :
    WavFile.open (.wav ch sr 16 (some s)) = .ok ⟨ch, sr, s⟩ := by
  simp only [WavFile.open, ne_eq, not_true_eq_false, if_false, expect, ok_bind, map_wrapI16 h]

/-- C17 for a run: a file with another bit depth, as reference or (after a loadable reference) as degraded file, makes the
run return `InvalidBitsPerSample`. -/
theorem C17_run [RustFft F] {p : Profile} {world : World F} {m : Manager F} {r d : String} {ch sr bits : Nat}
    {s : Option (List Int)} (hb : bits ≠ 16) :
    (world.wav r = .wav ch sr bits s → m.run p world r d = .error (.err (.invalidBitsPerSample bits))) ∧
    (∀ ref, loadAsMono (F := F) (world.wav r) = .ok ref → world.wav d = .wav ch sr bits s →
      m.run p world r d = .error (.err (.invalidBitsPerSample bits))) := by
  have hl : loadAsMono (F := F) (.wav ch sr bits s) = .error (.err (.invalidBitsPerSample bits)) := by
    simp only [loadAsMono, C17_only_16_bit ch sr bits s hb, error_bind]
  constructor
  · intro h
    simp only [Manager.run, h, hl, error_bind]
  · intro ref hr h
    simp only [Manager.run, hr, h, hl, ok_bind, error_bind]

example : (8 : Nat) ≠ 16 ∧ (∀ x ∈ [-32768, 0, 32767], IsI16 x) := by
  refine ⟨by decide, fun x hx => ?_⟩
  simp only [List.mem_cons, List.not_mem_nil, or_false] at hx
  rcases hx with rfl | rfl | rfl <;> exact ⟨by decide, by decide⟩

/-! ## C18 -/

/-- C18, any arithmetic: `c` channels with `n` interleaved frames load as `n` samples, sample `i` being the average of the
`c` values of frame `i`, each divided by 32767. -/
theorem C18_downmix (c sr n : Nat) (s : List Int) (hc : 0 < c) (hs : ∀ x ∈ s, IsI16 x) (hn : s.length = n * c) :
    ∃ data, loadAsMono (F := F) (.wav c sr 16 (some s)) = .ok ⟨data, sr⟩ ∧ data.length = n ∧
      ∀ i < n, data[i]? = some
        (Flt.sum (((s.drop (i * c)).take c).map fun x => (Flt.ofInt x / 32767.0 : F)) / Flt.ofNat c) := by
  have hd : s.length / c = n := by rw [hn]; exact Nat.mul_div_cancel _ hc
  refine ⟨((chunksOf c n (normalizeInt16 (F := F) s)).map Flt.sum).map (· / Flt.ofNat c), ?_, ?_, ?_⟩
  · simp only [loadAsMono, C17_samples_kept c sr s hs, ok_bind, extractMultichannel]
    rw [if_neg (by omega), if_pos (by simp [normalizeInt16, hn])]
    simp only [ok_bind, normalizeInt16, List.length_map, hd]
  · simp [chunksOf_length]
  · intro i hi
    rw [List.getElem?_map, List.getElem?_map, chunksOf_get _ _ _ _ hi]
    simp only [Option.map_some, normalizeInt16, List.map_drop, List.map_take]

end any

theorem list_range_sum (f : ℕ → ℝ) (c : ℕ) : ((List.range c).map f).sum = ∑ k ∈ Finset.range c, f k := by
  induction c with
  | zero => simp
  | succ c ih => rw [List.range_succ, List.map_append, List.sum_append, ih, Finset.sum_range_succ]; simp

/-- C18, exact arithmetic: the average over channels, and its range. -/
theorem C18_downmix_real (c sr n : ℕ) (s : List Int) (hc : 0 < c) (hs : ∀ x ∈ s, IsI16 x) (hn : s.length = n * c) :
    ∃ data, loadAsMono (F := ℝ) (.wav c sr 16 (some s)) = .ok ⟨data, sr⟩ ∧ data.length = n ∧
      ∀ i < n, data.getD i 0 = (∑ k ∈ Finset.range c, (s.getD (i * c + k) 0 : ℝ) / 32767) / c ∧
        -32768 / 32767 ≤ data.getD i 0 ∧ data.getD i 0 ≤ 1 := by
  obtain ⟨data, h1, h2, h3⟩ := C18_downmix (F := ℝ) c sr n s hc hs hn
  refine ⟨data, h1, h2, fun i hi => ?_⟩
  have hlen : i * c + c ≤ s.length := by
    rw [hn]
    calc i * c + c = (i + 1) * c := by ring
      _ ≤ n * c := Nat.mul_le_mul_right _ (by omega)
  have hfr : (s.drop (i * c)).take c = (List.range c).map fun k => s.getD (i * c + k) 0 := by
    apply List.ext_getElem?
    intro k
    rw [List.getElem?_map]
    by_cases hk : k < c
    · rw [List.getElem?_take_of_lt hk, List.getElem?_drop, List.getElem?_range hk, Option.map_some,
        List.getElem?_eq_getElem (by omega), List.getD_eq_getElem?_getD, List.getElem?_eq_getElem (by omega), Option.getD_some]
    · rw [List.getElem?_eq_none (by rw [List.length_take]; omega), List.getElem?_eq_none (by simpa using hk)]; rfl
  have hv : data.getD i 0 = (∑ k ∈ Finset.range c, (s.getD (i * c + k) 0 : ℝ) / 32767) / c := by
    rw [List.getD_eq_getElem?_getD, h3 i hi, Option.getD_some, hfr]
    simp only [List.map_map, real_sum, real_ofNat]
    congr 1
    rw [← list_range_sum]
    congr 1
    apply List.map_congr_left
    intro k _
    simp only [Function.comp, real_sci, real_ofInt]
    norm_num
  refine ⟨hv, ?_⟩
  have hc' : (0 : ℝ) < c := by exact_mod_cast hc
  have hb : ∀ k ∈ Finset.range c, -32768 / 32767 ≤ (s.getD (i * c + k) 0 : ℝ) / 32767 ∧ (s.getD (i * c + k) 0 : ℝ) / 32767 ≤ 1 := by
    intro k hk
    have hk := Finset.mem_range.mp hk
    have hm : s.getD (i * c + k) 0 ∈ s := by
      rw [List.getD_eq_getElem?_getD, List.getElem?_eq_getElem (by omega), Option.getD_some]; exact List.getElem_mem _
    obtain ⟨b1, b2⟩ := hs _ hm
    have b1' : (-32768 : ℝ) ≤ (s.getD (i * c + k) 0 : ℝ) := by exact_mod_cast b1
    have b2' : (s.getD (i * c + k) 0 : ℝ) ≤ 32767 := by exact_mod_cast b2
    constructor
    · rw [div_le_div_iff_of_pos_right (by norm_num)]; exact b1'
    · rw [div_le_one (by norm_num)]; exact b2'
  rw [hv]
  constructor
  · rw [le_div_iff₀ hc']
    have := Finset.card_nsmul_le_sum _ _ _ fun k hk => (hb k hk).1
    rw [Finset.card_range, nsmul_eq_mul] at this
    linarith
  · rw [div_le_one hc']
    have := Finset.sum_le_card_nsmul _ _ _ fun k hk => (hb k hk).2
    rw [Finset.card_range, nsmul_eq_mul] at this
    linarith

/-- A stereo file with two frames. -/
example : ∃ (c n : ℕ) (s : List Int), 0 < c ∧ (∀ x ∈ s, IsI16 x) ∧ s.length = n * c ∧ 1 < c ∧ 1 < n :=
  ⟨2, 2, [1, -2, 3, 32767], by decide, by
    intro x hx
    simp only [List.mem_cons, List.not_mem_nil, or_false] at hx
    rcases hx with rfl | rfl | rfl | rfl <;> exact ⟨by decide, by decide⟩, rfl, by decide, by decide⟩

end Visqol

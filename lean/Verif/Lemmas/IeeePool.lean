import Verif.Lemmas.IeeeFine
import Verif.Props.Ieee

/-! # Floating point: pooling of patch scores and quality mapping -/

set_option linter.unusedSectionVars false

namespace Visqol
open Ieee

variable {F : Type} [Flt F] [Ieee F]

theorem rnd_num (x : ℝ) : rnd F x ≠ .nan := by
  rcases le_total 0 x with h | h
  · rcases rnd_ge (F := F) (0.0 : F) 0 x val_0 h with e | ⟨z, e, _⟩ <;> simp [e]
  · rcases rnd_le (F := F) (0.0 : F) 0 x val_0 h with e | ⟨z, e, _⟩ <;> simp [e]

theorem clamp_num {x : F} (h : val x ≠ .nan) : ∃ y, val (Flt.clamp x 1.0 5.0) = .fin y ∧ 1 ≤ y ∧ y ≤ 5 := by
  rcases clamp_val x with hn | h'
  · exfalso
    apply h
    unfold Flt.clamp at hn
    dsimp only at hn
    split at hn
    · split at hn
      · rw [val_5] at hn; cases hn
      · rw [val_1] at hn; cases hn
    · split at hn
      · rw [val_5] at hn; cases hn
      · exact hn
  · exact h'

variable [Libm F]

/-- The speech quality mapping of numbers is a number from 1 to 5. -/
theorem speechQuality_num {s : Bool} {v : List F} {n : ℕ} (hv : ∀ a ∈ v, Pw n a) (hn : n ≤ 700) (hne : v ≠ []) (hl : v.length ≤ 2 ^ 32) :
    ∃ y, val (speechQuality s v) = .fin y ∧ 1 ≤ y ∧ y ≤ 5 := by
  unfold speechQuality
  dsimp only
  apply clamp_num
  have h1 : Pw (n + 32 + 1) (Flt.iterSum v) := Pw.iterSum hv hl (by norm_num) (by omega)
  have h2 : Pw (n + 32 + 1 + 1) (Flt.iterSum v / Flt.ofNat v.length : F) :=
    Pw.div_nat h1 (List.length_pos_iff.mpr hne) (hl.trans (by norm_num)) (by omega)
  generalize (Flt.iterSum v / Flt.ofNat v.length : F) = mean at *
  have hlit : ∀ (m e : ℕ), (m : ℝ) / 10 ^ e ≤ 2 ^ 3 → Pw 4 (Flt.toOfScientific.ofScientific m true e : F) := by
    intro m e h
    refine Pw.of_rnd (n := 3) (x := (m : ℝ) / 10 ^ e) (by rw [val_sci]; rfl) ?_ (by norm_num)
    rw [abs_of_nonneg (by positivity)]
    exact h
  have ha : Pw 4 (1.1559455 : F) := hlit 11559455 7 (by norm_num)
  have hb : Pw 4 (4.6851153 : F) := hlit 46851153 7 (by norm_num)
  have hx : Pw 4 (0.7655232 : F) := hlit 7655232 7 (by norm_num)
  have hs : ∃ z, Is (if s = true then 1.2031409 else 1.0 : F) z ∧ z ≠ 0 := by
    by_cases h : s = true
    · rw [if_pos h]
      obtain ⟨c, hc, hce⟩ := lit_near (F := F) (m := 12031409) (e := 7) (x := 12031409 / 10000000) (by norm_num) (by norm_num) (by norm_num)
      have := (abs_le.mp hce).1
      norm_num at this
      exact ⟨c, hc, by intro h0; rw [h0] at this; norm_num at this⟩
    · rw [if_neg h]; exact ⟨1, val_1, one_ne_zero⟩
  obtain ⟨z, hz, hz0⟩ := hs
  generalize (if s = true then 1.2031409 else 1.0 : F) = sc at *
  unfold exponentialFromFit
  have h3 := (h2.mono (show _ ≤ 740 by omega)).sub (hx.mono (show 4 ≤ 740 by norm_num)) (by norm_num)
  obtain ⟨t, ht, _⟩ := hb.mul h3 (by norm_num)
  have he := Libm.exp_num _ t ht
  obtain ⟨a, ha', _⟩ := ha
  rw [val_mul, val_add, hz, ha']
  cases hv' : val (Flt.exp (4.6851153 * (mean - 0.7655232)) : F) with
  | nan => exact absurd hv' he
  | inf s => simp [Val.add, Val.mul, hz0]
  | fin y =>
    show Val.mul _ (rnd F (a + y)) _ ≠ _
    cases h : rnd F (a + y) with
    | nan => exact absurd h (rnd_num _)
    | inf s => simp [Val.mul, hz0]
    | fin u => exact rnd_num _

theorem foldBands_bd {sel : PatchSim F → List F} {S : ℝ} (hS1 : 1 ≤ S) (hS2 : S ≤ 2 ^ 900) : ∀ {ps : List (PatchSim F)} {acc r : List F} (k : ℕ),
    foldE (fun acc q => addBands acc (sel q)) acc ps = .ok r → (∀ a ∈ acc, Bd (grow S k) a) → (∀ q ∈ ps, ∀ a ∈ sel q, Bd S a) →
    k + ps.length ≤ 2 ^ 50 → ∀ a ∈ r, Bd (grow S (k + ps.length)) a
  | [], acc, r, k, h, ha, _, _ => by cases h; simpa using ha
  | q :: ps, acc, r, k, h, ha, hq, hk => by
    rw [List.length_cons] at hk ⊢
    obtain ⟨acc1, h1, h⟩ := bind_ok h
    obtain ⟨hl, hv⟩ := addBands_ok h1
    have := foldBands_bd hS1 hS2 (k + 1) h ?_ (fun q' hq' => hq q' (by simp [hq'])) (by omega)
    · rw [show k + (ps.length + 1) = k + 1 + ps.length by omega]; exact this
    · intro a ha1
      obtain ⟨b, hb, rfl⟩ := List.getElem_of_mem ha1
      obtain ⟨y, hy, hr⟩ := hv b (by omega)
      rw [List.getElem?_eq_getElem hb] at hr
      rw [Option.some.inj hr]
      obtain ⟨u, hu1, hu2⟩ := ha _ (List.getElem_mem (show b < acc.length by omega))
      obtain ⟨w, hw1, hw2⟩ := hq q (by simp) y (List.mem_of_getElem? hy)
      obtain ⟨z, hz1, hz2⟩ := grow_step (F := F) hS1 hS2 (by omega) hu2 hw2
      exact ⟨z, (Is.add hu1 hw1).trans hz1, hz2⟩

/-- The mean over patches of numbers is a number. -/
theorem perPatchMean_pw {sel : PatchSim F → List F} {ps : List (PatchSim F)} {v : List F} {S : ℝ} (h : perPatchMean sel ps = .ok v)
    (hq : ∀ q ∈ ps, ∀ a ∈ sel q, Bd S a) (hS1 : 1 ≤ S) (hS2 : S ≤ 2 ^ 19) (hl : ps.length ≤ 2 ^ 32) : ∀ a ∈ v, Bd (S + 2 + 1) a := by
  unfold perPatchMean at h
  obtain ⟨q, h1, h⟩ := bind_ok h
  obtain ⟨t, h2, h⟩ := bind_ok h
  cases h
  have hp : 0 < ps.length := (List.getElem?_eq_some_iff.mp (idx_ok h1)).1
  have := foldBands_bd (S := S) hS1 (hS2.trans (two_pow_mono (by norm_num))) 0 h2 (by
    intro a ha
    rw [List.eq_of_mem_replicate ha]
    exact ⟨0, val_0, by simp [grow]⟩) hq (by omega)
  intro a ha
  obtain ⟨b, hb, rfl⟩ := List.mem_map.mp ha
  obtain ⟨x, hx1, hx2⟩ := this b hb
  rw [Nat.zero_add] at hx2
  exact mean_tight hx1 hx2 hp hl hS1 hS2

/-- The mean of numbers is a number. -/
theorem meanOpt_pw {v : List F} {m : F} {n k : ℕ} (h : meanOpt v = some m) (hv : ∀ a ∈ v, Pw n a) (hn : n ≤ 900) (hl : v.length ≤ 2 ^ k)
    (hk : k ≤ 50) : Pw (n + k + 2) m := by
  unfold meanOpt at h
  split at h
  · cases h
  · rename_i hne
    cases h
    exact Pw.div_nat (Pw.sum hv hl hk hn) (List.length_pos_iff.mpr hne)
      ((hl.trans (Nat.pow_le_pow_right (by norm_num) hk)).trans (by norm_num)) (by omega)

theorem perPatchStdDevs_total' (p : Profile) {ps : List (PatchSim F)} {fd : F} {nb : Nat} (hne : ps ≠ [])
    (hq : ∀ q ∈ ps, q.freqBandMeans.length = nb ∧ q.freqBandStddevs.length = nb) (ht : ∀ q ∈ ps, HasFrames fd q) :
    ∃ v, perPatchStdDevs p ps fd = .ok v := by
  have hl := List.length_pos_iff.mpr hne
  obtain ⟨f, hf, _⟩ := perPatchMean_total (sel := PatchSim.freqBandMeans) hne (fun q h => (hq q h).1) (fun q h => (hq q h).1)
  unfold perPatchStdDevs
  rw [hf]
  simp only [ok_bind]
  rw [idx_of_lt hl]
  simp only [ok_bind]
  rw [(hq _ (List.getElem_mem hl)).1]
  obtain ⟨⟨c, t⟩, h1, _⟩ := foldE_total (f := stdContribution p fd) (l := ps) (s := (List.replicate nb 0.0, 0))
    (fun s : List F × Nat => s.1.length = nb) (by
      intro q hqm s hs
      have hfc : 1 ≤ Flt.toUsize (Flt.ceil ((q.refEnd - q.refStart) / fd)) := ht q hqm
      have key : ∃ s', stdContribution p fd s q = .ok s' := by
        unfold stdContribution
        dsimp only
        obtain ⟨r, hr⟩ : ∃ r, mapE (fun (x : F × Nat) => do
            let dev ← idx q.freqBandStddevs x.2
            let mean ← idx q.freqBandMeans x.2
            let fm ← usub p (Flt.toUsize (Flt.ceil ((q.refEnd - q.refStart) / fd))) 1
            .ok (x.1 + Flt.ofNat fm * dev * dev +
              Flt.ofNat (Flt.toUsize (Flt.ceil ((q.refEnd - q.refStart) / fd))) * mean * mean)) s.1.zipIdx = .ok r := by
          apply mapE_total
          rintro ⟨x, i⟩ hx
          obtain ⟨_, h2, _⟩ := List.mem_zipIdx hx
          have := hq q hqm
          dsimp only
          rw [idx_of_lt (by omega), idx_of_lt (by omega), usub_of_le hfc]
          exact ⟨_, rfl⟩
        rw [hr]
        exact ⟨_, rfl⟩
      obtain ⟨s', hs'⟩ := key
      exact ⟨s', hs', (stdContribution_length hs').trans hs⟩) (by simp)
  rw [h1]
  exact ⟨_, rfl⟩

end Visqol

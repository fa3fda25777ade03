import Verif.Lemmas.IeeeFilter
import Verif.Props.PrepareIeee
import Verif.Lemmas.Spectro
import Verif.Lemmas.History

/-! # Spectrograms in floating point: no infinite entries, and preparation succeeds -/

set_option linter.unusedSectionVars false

namespace Visqol
open Ieee
variable {F : Type} [Flt F] [Ieee F]

/-- The coefficients of a band are of ordinary size and its poles are stable. -/
structure TameBand (c : BandCoeffs F) : Prop where
  g0 : Pw 150 (c.a0 / c.gain)
  g1 : Pw 150 (c.a11 / c.gain)
  g2 : Pw 150 (c.a2 / c.gain)
  k0 : Pw 5 c.a0
  k2 : Pw 5 c.a12
  k3 : Pw 5 c.a13
  k4 : Pw 5 c.a14
  kz : Pw 5 c.a2
  den : StableDen ⟨c.b0, c.b1, c.b2⟩

theorem filterSignal_length' (num den : Taps F) : ∀ (xs : List F) (z : F × F), (filterSignal num den xs z).1.length = xs.length
  | [], _ => rfl
  | x :: xs, z => by simp only [filterSignal, List.length_cons, filterSignal_length']

theorem cascade_pw {c : BandCoeffs F} (hc : TameBand c) {m : ℕ} {xs : List F} (hx : ∀ x ∈ xs, Pw m x) (hn : xs.length ≤ 2 ^ 17)
    (hm : m ≤ 300) : (∀ y ∈ cascade c xs, Pw (m + 317) y) ∧ (cascade c xs).length = xs.length := by
  unfold cascade
  dsimp only
  have h1 := filter_bound (num := ⟨c.a0 / c.gain, c.a11 / c.gain, c.a2 / c.gain⟩) hc.g0 hc.g1 hc.g2 hc.den hx hn (by omega)
  have l1 := filterSignal_length' ⟨c.a0 / c.gain, c.a11 / c.gain, c.a2 / c.gain⟩ ⟨c.b0, c.b1, c.b2⟩ xs (0.0, 0.0)
  generalize (filterSignal ⟨c.a0 / c.gain, c.a11 / c.gain, c.a2 / c.gain⟩ ⟨c.b0, c.b1, c.b2⟩ xs (0.0, 0.0)).1 = x1 at *
  have h2 := filter_bound (num := ⟨c.a0, c.a12, c.a2⟩) hc.k0 hc.k2 hc.kz hc.den h1 (by omega) (by omega)
  have l2 := filterSignal_length' ⟨c.a0, c.a12, c.a2⟩ ⟨c.b0, c.b1, c.b2⟩ x1 (0.0, 0.0)
  generalize (filterSignal ⟨c.a0, c.a12, c.a2⟩ ⟨c.b0, c.b1, c.b2⟩ x1 (0.0, 0.0)).1 = x2 at *
  have h3 := filter_bound (num := ⟨c.a0, c.a13, c.a2⟩) hc.k0 hc.k3 hc.kz hc.den h2 (by omega) (by omega)
  have l3 := filterSignal_length' ⟨c.a0, c.a13, c.a2⟩ ⟨c.b0, c.b1, c.b2⟩ x2 (0.0, 0.0)
  generalize (filterSignal ⟨c.a0, c.a13, c.a2⟩ ⟨c.b0, c.b1, c.b2⟩ x2 (0.0, 0.0)).1 = x3 at *
  have h4 := filter_bound (num := ⟨c.a0, c.a14, c.a2⟩) hc.k0 hc.k4 hc.kz hc.den h3 (by omega) (by omega)
  refine ⟨fun y hy => (h4 y hy).mono (by omega), ?_⟩
  rw [filterSignal_length']; omega

theorem sqrt_not_inf {a : F} {n : ℕ} (h : Pw n a) (hn : n ≤ 990) (s : Bool) : val (Flt.sqrt a) ≠ .inf s := by
  obtain ⟨x, h1, h2⟩ := h
  by_cases hx : x < 0
  · rw [val_sqrt, h1]
    show (if x < 0 then Val.nan else _) ≠ _
    rw [if_pos hx]
    intro h; cases h
  · obtain ⟨y, hy, _⟩ := Pw.sqrt h1 (not_lt.mp hx) h2 hn
    rw [hy]; intro h; cases h

/-- The energy of a filtered frame is not infinite. -/
theorem bandEnergy_noInf [Libm F] {c : BandCoeffs F} (hc : TameBand c) {m : ℕ} {xs : List F} (hx : ∀ x ∈ xs, Pw m x)
    (hn : xs.length ≤ 2 ^ 17) (h0 : 0 < xs.length) (hm : m ≤ 100) (s : Bool) : val (bandEnergy c xs) ≠ .inf s := by
  obtain ⟨h1, h2⟩ := cascade_pw hc hx hn (by omega)
  unfold bandEnergy
  have h3 : Pw (2 * m + 653) (Flt.sum ((cascade c xs).map fun e => e * e)) := by
    refine (Pw.sum (n := 2 * m + 635) (k := 17) ?_ (by rw [List.length_map]; omega) (by norm_num) (by omega)).mono (by omega)
    intro a ha
    obtain ⟨e, he, rfl⟩ := List.mem_map.mp ha
    exact ((h1 e he).mul (h1 e he) (by omega)).mono (by omega)
  exact sqrt_not_inf (n := 2 * m + 654) (h3.div_nat (by omega) (hn.trans (by norm_num)) (by omega)) (by omega) s

/-- All bands of a bank are tame. -/
def TameBank (nb sr : Nat) (minFreq : F) : Prop := ∀ c ∈ rowCoeffs nb sr minFreq, TameBand c

theorem spectroMat_noInf [Libm F] {nb : Nat} {minFreq : F} {s : AudioSignal F} {w : AnalysisWindow F} (hb : TameBank nb s.sampleRate minFreq)
    {m : ℕ} (hm : m ≤ 100) (hx : ∀ x ∈ s.data, Pw m x) (h1 : w.size ≤ s.data.length) (h2 : 0 < w.size) (h3 : w.size ≤ 2 ^ 17) :
    NoInf (spectroMat nb minFreq s w) := by
  intro r hr a ha t
  obtain ⟨c, hc, rfl⟩ := List.mem_map.mp hr
  obtain ⟨j, hj, rfl⟩ := List.mem_map.mp ha
  have hl := frameAt_length (s := s) (w := w) h1 (List.mem_range.mp hj)
  refine bandEnergy_noInf (hb c hc) (m := m) (fun x h => hx x ?_) (by omega) (by omega) hm t
  exact List.mem_of_mem_drop (List.mem_of_mem_take h)

/-- No centre frequency is NaN. -/
def FreqsOk (nb sr : Nat) (minFreq : F) : Prop := ∀ f ∈ rawFreqs nb sr minFreq, val f ≠ .nan

theorem isNaN_of_val {a : F} (h : val a ≠ .nan) : Flt.isNaN a = false := by
  unfold Flt.isNaN
  rw [eq_val]
  cases hv : val a with
  | nan => exact absurd hv h
  | inf s => cases s <;> rfl
  | fin x => simp [Val.eq]

theorem sortFreqs_ok {l : List F} (h : ∀ f ∈ l, val f ≠ .nan) : ∃ s, sortFreqs l = .ok s := by
  unfold sortFreqs
  rw [if_neg]
  · exact ⟨_, rfl⟩
  · rintro ⟨_, h2⟩
    obtain ⟨f, hf, hn⟩ := List.any_eq_true.mp h2
    rw [isNaN_of_val (h f hf)] at hn
    cases hn

theorem buildSpectrogram_total' (nb : Nat) (fb : FilterBank F) (s : AudioSignal F) (w : AnalysisWindow F)
    (hf : FreqsOk nb s.sampleRate fb.minFreq) (h1 : w.size ≤ s.data.length) (h2 : 0 < w.hop) (h3 : 0 < w.size) :
    ∃ fb' sp, buildSpectrogram nb fb s w = .ok (fb', sp) ∧ sp.data = spectroMat nb fb.minFreq s w ∧ fb'.minFreq = fb.minFreq := by
  obtain ⟨fb', h⟩ := buildSpectrogram_eq nb fb s w h1 h2 h3
  obtain ⟨so, hs⟩ := sortFreqs_ok hf
  rw [hs] at h
  exact ⟨fb', _, h, rfl, buildSpectrogram_minFreq h⟩

/-- Preparation of two matrices without infinities: it succeeds, and the levels are of ordinary size. -/
theorem prepare_pw {ref deg : Mat F} (wr : ref.WF) (wd : deg.WF) (hrn : 0 < ref.nrows) (hrc : 0 < ref.ncols)
    (hdn : 0 < deg.nrows) (hdc : 0 < deg.ncols) (hr : NoInf ref) (hd : NoInf deg) :
    ∃ a b, prepareSpectrograms ref deg = .ok (a, b) ∧ a.Pw 12 ∧ b.Pw 12 := by
  obtain ⟨a, b, h1, h2, h3⟩ := C24_nan_free wr wd hrn hrc hdn hdc hr hd
  refine ⟨a, b, h1, fun r hr x hx => ?_, fun r hr x hx => ?_⟩
  · obtain ⟨v, v1, v2⟩ := h2 r hr x hx
    exact ⟨v, v1, v2.trans (by norm_num)⟩
  · obtain ⟨v, v1, v2⟩ := h3 r hr x hx
    exact ⟨v, v1, v2.trans (by norm_num)⟩

end Visqol

import Verif.Model.Audio
import Verif.Model.Cpx

/-! # Biquad filtering, ERB coefficients and the gammatone filterbank -/

namespace Visqol
variable {F : Type} [Flt F]

/-- A coefficient array `[f64; 3]`, as passed to `filter_signal` (`signal_filter.rs:13-18`). -/
structure Taps (F : Type) where
  c0 : F
  c1 : F
  c2 : F
  deriving DecidableEq, Repr

/-- `signal_filter.rs:13-37` `filter_signal`: returns the filtered signal and the final conditions.
`denom.c0` is never read, as in the source. -/
def filterSignal (num den : Taps F) : List F → F × F → List F × (F × F)
  | [], z => ([], z)
  | x :: xs, z =>
    let y := num.c0 * x + z.1
    let z0 := num.c1 * x + z.2 - den.c1 * y
    let z1 := num.c2 * x - den.c2 * y
    let r := filterSignal num den xs (z0, z1)
    (y :: r.1, r.2)

/-! ## `equivalent_rectangular_bandwidth.rs` -/

/-- `equivalent_rectangular_bandwidth.rs:9` `EAR_Q` -/
def earQ : F := 9.26449
/-- `equivalent_rectangular_bandwidth.rs:10` `MIN_BW` -/
def minBw : F := 24.7

/-- `equivalent_rectangular_bandwidth.rs:210-227` `calculate_uniform_center_freqs`. -/
def uniformCenterFreqs (nb : Nat) (lowFreq highFreq : F) : List F :=
  let a : F := -(earQ * minBw)
  let b : F := -(Flt.ln (highFreq + earQ * minBw))
  let c : F := Flt.ln (lowFreq + earQ * minBw)
  let d : F := highFreq + earQ * minBw
  let e : F := (b + c) / Flt.ofNat nb
  (List.range nb).map fun i => a + Flt.exp ((Flt.ofNat i + 1.0) * e) * d

/-- One row of `vf_coeffs`, `equivalent_rectangular_bandwidth.rs:188-204`: columns 0 to 9. -/
structure BandCoeffs (F : Type) where
  a0 : F
  a11 : F
  a12 : F
  a13 : F
  a14 : F
  a2 : F
  b0 : F
  b1 : F
  b2 : F
  gain : F
  deriving DecidableEq, Repr

/-- `equivalent_rectangular_bandwidth.rs:33-37`: the bandwidth term `B` of one band
(`MIN_BW.powf(ERB_ORDER)` and `1.0 / ERB_ORDER` with `ERB_ORDER = 1.0`). -/
def bandwidthTerm (cf : Cpx F) : Cpx F :=
  let erb := (((cf.sdiv earQ).powf 1.0).sadd (Flt.powf minBw 1.0)).powf (1.0 / 1.0)
  erb.smul (1.019 * 2.0 * Flt.pi)

/-- `equivalent_rectangular_bandwidth.rs:25-204`: the per-band computation of `make_filters`.  The source works on
arrays over bands; every statement is elementwise, so one band is computed here. -/
def bandCoeffs (sampleRate : Nat) (cfRe : F) : BandCoeffs F :=
  let pi : F := Flt.pi
  let cf : Cpx F := Cpx.ofRe cfRe
  let b := bandwidthTerm cf
  let t : F := 1.0 / Flt.ofNat sampleRate
  let expBt := (b.smul t).exp
  let B1 := ((((cf.smul 2.0).smul pi).smul t).cos.smul (-2.0)).div expBt
  let B2 := ((b.smul t).smul (-2.0)).exp
  let b1 := (((cf.smul 2.0).smul pi).smul t).sin.smul t
  let bPos := (b1.smul 2.0).smul (Flt.sqrt (3.0 + Flt.powf 2.0 1.5))
  let bNeg := (b1.smul 2.0).smul (Flt.sqrt (3.0 + -(Flt.powf 2.0 1.5)))
  let a := ((((cf.smul 2.0).smul pi).smul t).cos.smul 2.0).smul t
  let A11 := (Cpx.neg ((a.div expBt).add (bPos.div expBt))).sdiv 2.0
  let A12 := (Cpx.neg ((a.div expBt).sub (bPos.div expBt))).sdiv 2.0
  let A13 := (Cpx.neg ((a.div expBt).add (bNeg.div expBt))).sdiv 2.0
  let A14 := (Cpx.neg ((a.div expBt).sub (bNeg.div expBt))).sdiv 2.0
  let i : Cpx F := ⟨0.0, 1.0⟩
  let p1 : F := Flt.powf 2.0 (3.0 / 2.0)
  let s1 : F := Flt.sqrt (3.0 - p1)
  let s2 : F := Flt.sqrt (3.0 + p1)
  let xExp := ((((i.smul 4.0).mul cf).smul pi).smul t).exp
  let x01 := (xExp.smul (-2.0)).smul t
  let x02 := (((Cpx.add (Cpx.neg (b.smul t)) ((((i.smul 2.0).mul cf).smul pi).smul t)).exp).smul 2.0).smul t
  let xcos := (((cf.smul 2.0).smul pi).smul t).cos
  let xsin := (((cf.smul 2.0).smul pi).smul t).sin
  let x1 := x01.add (x02.mul (xcos.sub (xsin.smul s1)))
  let x2 := x01.add (x02.mul (xcos.add (xsin.smul s1)))
  let x3 := x01.add (x02.mul (xcos.sub (xsin.smul s2)))
  let x4 := x01.add (x02.mul (xcos.add (xsin.smul s2)))
  let x5 := Cpx.add (Cpx.sub (Cpx.rdiv (-2.0) (((b.smul 2.0).smul t).exp)) (xExp.smul 2.0))
    (((xExp.sadd 1.0).smul 2.0).div ((b.smul t).exp))
  let gain := ((((x1.mul x2).mul x3).mul x4).div (x5.powf 4.0)).norm
  ⟨t, A11.re, A12.re, A13.re, A14.re, 0.0, 1.0, B1.re, B2.re, gain⟩

/-- `equivalent_rectangular_bandwidth.rs:19-23`: the upper frequency, limited to half the sample rate. -/
def effectiveHighFreq (sampleRate : Nat) (highFreq : F) : F :=
  if Flt.lt (Flt.ofNat sampleRate / 2.0) highFreq then Flt.ofNat sampleRate / 2.0 else highFreq

/-- `equivalent_rectangular_bandwidth.rs:14-207` `make_filters`: coefficient rows and centre frequencies, in the
order of `calculate_uniform_center_freqs`. -/
def makeFilters (nb sampleRate : Nat) (lowFreq highFreq : F) : List (BandCoeffs F) × List F :=
  let cf := uniformCenterFreqs nb lowFreq (effectiveHighFreq sampleRate highFreq)
  (cf.map (bandCoeffs sampleRate), cf)

/-! ## `gammatone_filterbank.rs` -/

/-- `gammatone_filterbank.rs:5-23`.  The ten coefficient vectors always come from the columns of one matrix
(`set_filter_coefficients`), so they are kept as one list of rows; the condition arrays have `NUM_BANDS` entries. -/
structure FilterBank (F : Type) where
  minFreq : F
  cond1 : List (F × F)
  cond2 : List (F × F)
  cond3 : List (F × F)
  cond4 : List (F × F)
  coeffs : List (BandCoeffs F)
  deriving DecidableEq, Repr

/-- `gammatone_filterbank.rs:27-45` `new`. -/
def FilterBank.new (nb : Nat) (minFreq : F) : FilterBank F :=
  let z := List.replicate nb ((0.0 : F), (0.0 : F))
  ⟨minFreq, z, z, z, z, []⟩

/-- `gammatone_filterbank.rs:48-53` `reset_filter_conditions`. -/
def FilterBank.reset (fb : FilterBank F) (nb : Nat) : FilterBank F :=
  let z := List.replicate nb ((0.0 : F), (0.0 : F))
  { fb with cond1 := z, cond2 := z, cond3 := z, cond4 := z }

/-- `gammatone_filterbank.rs:56-67` `set_filter_coefficients`. -/
def FilterBank.setCoeffs (fb : FilterBank F) (c : List (BandCoeffs F)) : FilterBank F :=
  { fb with coeffs := c }

/-- `gammatone_filterbank.rs:79-139`, one iteration of the loop over bands: four cascaded sections. -/
def FilterBank.applyBand (fb : FilterBank F) (band : Nat) (input : List F) : M (FilterBank F × List F) := do
  let c ← idx fb.coeffs band
  let den : Taps F := ⟨c.b0, c.b1, c.b2⟩
  let z1 ← idx fb.cond1 band
  let r1 := filterSignal ⟨c.a0 / c.gain, c.a11 / c.gain, c.a2 / c.gain⟩ den input z1
  let z2 ← idx fb.cond2 band
  let r2 := filterSignal ⟨c.a0, c.a12, c.a2⟩ den r1.1 z2
  let z3 ← idx fb.cond3 band
  let r3 := filterSignal ⟨c.a0, c.a13, c.a2⟩ den r2.1 z3
  let z4 ← idx fb.cond4 band
  let r4 := filterSignal ⟨c.a0, c.a14, c.a2⟩ den r3.1 z4
  .ok ({ fb with
          cond1 := fb.cond1.set band r1.2
          cond2 := fb.cond2.set band r2.2
          cond3 := fb.cond3.set band r3.2
          cond4 := fb.cond4.set band r4.2 }, r4.1)

/-- `gammatone_filterbank.rs:71-141` `apply_filter`: the loop over bands, collecting output rows. -/
def FilterBank.applyFilter (fb : FilterBank F) (nb : Nat) (input : List F) : M (FilterBank F × List (List F)) :=
  foldE (fun st band => do
    let r ← st.1.applyBand band input
    .ok (r.1, st.2 ++ [r.2])) (fb, []) (List.range nb)

end Visqol

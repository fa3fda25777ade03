import Verif.Model.Output
import Verif.Spec.Output
import Verif.Props.Batch
import Verif.Props.CliOutput
import Verif.Lemmas.Ieee
import Verif.Spec.Numbers

/-! # The texts of the files written by the tool (C94) -/

set_option linter.unusedSectionVars false

namespace Visqol
open Spec

/-! ## JSON: tokens -/

/-- A character that can occur in a number or word: neither blank nor quote nor punctuation. -/
def atomChar (c : Char) : Prop := blank c = false ∧ c ≠ '"' ∧ punct c = none

/-- What follows does not continue an atom. -/
def Stops (s : List Char) : Prop := s = [] ∨ ∃ c cs, s = c :: cs ∧ (blank c = true ∨ (c ≠ '"' ∧ (punct c).isSome))

/-- The text `s` consists of the tokens `ts`. -/
def Lexes (s : List Char) (ts : List Tok) : Prop :=
  ∀ rest out, Stops rest → lex .between rest = some out → lex .between (s ++ rest) = some (ts ++ out)

theorem lex_blank {c : Char} {cs : List Char} (h : blank c = true) : lex .between (c :: cs) = lex .between cs := by
  rw [lex, if_pos h]

theorem lex_spaces (n : Nat) (cs : List Char) : lex .between (spaces n ++ cs) = lex .between cs := by
  induction n with
  | zero => rfl
  | succ n ih =>
    unfold spaces at *
    rw [List.replicate_succ, List.cons_append, lex_blank (by decide), ih]

theorem lex_punct {c : Char} {t : Tok} {cs : List Char} (h1 : blank c = false) (h2 : c ≠ '"') (h3 : punct c = some t) :
    lex .between (c :: cs) = (lex .between cs).map (t :: ·) := by
  rw [lex, h1, if_neg Bool.false_ne_true, if_neg h2, h3]

theorem lex_inAtom {a s : List Char} (hs : ∀ c ∈ s, atomChar c) {rest : List Char} {out : List Tok} (hr : Stops rest)
    (h : lex .between rest = some out) : lex (.inAtom a) (s ++ rest) = some (.atom (a ++ s) :: out) := by
  induction s generalizing a with
  | nil =>
    rw [List.nil_append, List.append_nil]
    rcases hr with rfl | ⟨c, cs, rfl, hc⟩
    · simp only [lex, Option.some.injEq] at h ⊢
      rw [← h]
    · by_cases hb : blank c = true
      · rw [lex_blank hb] at h
        rw [lex, if_pos hb, h]; rfl
      · obtain ⟨h2, h3⟩ := hc.resolve_left hb
        obtain ⟨t, ht⟩ := Option.isSome_iff_exists.mp h3
        rw [lex_punct (by simpa using hb) h2 ht] at h
        rw [lex, if_neg hb, if_neg h2, ht]
        cases hl : lex .between cs with
        | none => rw [hl] at h; cases h
        | some ts => rw [hl] at h; cases h; rfl
  | cons c s ih =>
    obtain ⟨h1, h2, h3⟩ := hs c (by simp)
    rw [List.cons_append, lex, h1, if_neg Bool.false_ne_true, if_neg h2, h3]
    dsimp only
    rw [ih (fun c hc => hs c (by simp [hc]))]
    simp

theorem lexes_atom {s : List Char} (h0 : s ≠ []) (hs : ∀ c ∈ s, atomChar c) : Lexes s [.atom s] := by
  intro rest out hr h
  obtain ⟨c, s, rfl⟩ := List.exists_cons_of_ne_nil h0
  obtain ⟨h1, h2, h3⟩ := hs c (by simp)
  rw [List.cons_append, lex, h1, if_neg Bool.false_ne_true, if_neg h2, h3]
  dsimp only
  rw [lex_inAtom (fun c hc => hs c (by simp [hc])) hr h]
  rfl

theorem lex_inStr {a s : List Char} (hs : ∀ c ∈ s, c ≠ '"' ∧ c ≠ '\\') (rest : List Char) :
    lex (.inStr a) (s ++ '"' :: rest) = (lex .between rest).map (.str (a ++ s) :: ·) := by
  induction s generalizing a with
  | nil => rw [List.nil_append, lex, if_pos rfl, List.append_nil]
  | cons c s ih =>
    obtain ⟨h1, h2⟩ := hs c (by simp)
    rw [List.cons_append, lex, if_neg h1, if_neg h2, ih (fun c hc => hs c (by simp [hc]))]
    simp

/-- The tokens of a field of an object. -/
theorem lexes_field {k v : List Char} {ts : List Tok} (hk : ∀ c ∈ k, c ≠ '"' ∧ c ≠ '\\') (hv : Lexes v ts) :
    Lexes ('"' :: (k ++ '"' :: ':' :: ' ' :: v)) (.str k :: .colon :: ts) := by
  intro rest out hr h
  have e : ('"' :: (k ++ '"' :: ':' :: ' ' :: v)) ++ rest = '"' :: (k ++ '"' :: (':' :: ' ' :: (v ++ rest))) := by simp
  rw [e, lex, if_neg (by decide), if_pos rfl, lex_inStr hk, List.nil_append,
    lex_punct (by decide) (by decide) (show punct ':' = some .colon from rfl), lex_blank (by decide), hv _ _ hr h]
  rfl

/-- Tokens of elements separated by commas. -/
def sepBy : List (List Tok) → List Tok
  | [] => []
  | t :: ts => t ++ ts.flatMap fun u => .comma :: u

/-- The tokens of an array or object. -/
theorem lexes_group {o c : Char} {tob tc : Tok} (ho : blank o = false ∧ o ≠ '"' ∧ punct o = some tob)
    (hc : blank c = false ∧ c ≠ '"' ∧ punct c = some tc) (indent : Nat) {items : List (List Char)} {toks : List (List Tok)}
    (h : List.Forall₂ Lexes items toks) : Lexes (jsonGroup o c indent items) (tob :: (sepBy toks ++ [tc])) := by
  intro rest out hr hout
  have hclose : lex .between (c :: rest) = some (tc :: out) := by
    rw [lex_punct hc.1 hc.2.1 hc.2.2, hout]; rfl
  cases h with
  | nil =>
    show lex .between (o :: c :: rest) = _
    rw [lex_punct ho.1 ho.2.1 ho.2.2, hclose]
    rfl
  | @cons x t xs ts h1 h2 =>
    have stopEnd : Stops ('\n' :: (spaces indent ++ c :: rest)) := .inr ⟨'\n', _, rfl, .inl rfl⟩
    have hend : lex .between ('\n' :: (spaces indent ++ c :: rest)) = some (tc :: out) := by
      rw [lex_blank (by decide), lex_spaces, hclose]
    have tail : ∀ {xs : List (List Char)} {ts : List (List Tok)}, List.Forall₂ Lexes xs ts →
        Stops ((xs.flatMap fun y => ',' :: '\n' :: (spaces (indent + 2) ++ y)) ++ '\n' :: (spaces indent ++ c :: rest)) ∧
        lex .between ((xs.flatMap fun y => ',' :: '\n' :: (spaces (indent + 2) ++ y)) ++ '\n' :: (spaces indent ++ c :: rest)) =
          some ((ts.flatMap fun u => .comma :: u) ++ tc :: out) := by
      intro xs ts h
      induction h with
      | nil => exact ⟨stopEnd, hend⟩
      | @cons y u ys us g1 _ ih =>
        refine ⟨.inr ⟨',', _, by rw [List.flatMap_cons, List.cons_append, List.cons_append], .inr ⟨by decide, rfl⟩⟩, ?_⟩
        have e : (List.flatMap (fun y => ',' :: '\n' :: (spaces (indent + 2) ++ y)) (y :: ys)) ++ '\n' :: (spaces indent ++ c :: rest) =
            ',' :: '\n' :: (spaces (indent + 2) ++ (y ++ ((ys.flatMap fun y => ',' :: '\n' :: (spaces (indent + 2) ++ y)) ++
              '\n' :: (spaces indent ++ c :: rest)))) := by
          simp [List.flatMap_cons]
        rw [e, lex_punct (by decide) (by decide) (show punct ',' = some .comma from rfl), lex_blank (by decide), lex_spaces,
          g1 _ _ ih.1 ih.2]
        simp
    obtain ⟨t1, t2⟩ := tail h2
    have e : jsonGroup o c indent (x :: xs) ++ rest = o :: '\n' :: (spaces (indent + 2) ++ (x ++
        ((xs.flatMap fun y => ',' :: '\n' :: (spaces (indent + 2) ++ y)) ++ '\n' :: (spaces indent ++ c :: rest)))) := by
      simp [jsonGroup]
    rw [e, lex_punct ho.1 ho.2.1 ho.2.2, lex_blank (by decide), lex_spaces, h1 _ _ t1 t2]
    simp [sepBy]

/-! ## JSON: values -/

/-- The tokens `ts` are those of the value `v`. -/
def Parses (ts : List Tok) (v : Json) : Prop :=
  ∃ t ts', ts = t :: ts' ∧ t ≠ .closeArr ∧ ∀ outer rest, (stepValue outer t).bind (parse · (ts' ++ rest)) = parse (.after v outer) rest

theorem parse_cons (s : State) (t : Tok) (ts : List Tok) : parse s (t :: ts) = (step s t).bind (parse · ts) := by
  cases s with
  | after v outer => cases outer <;> rfl
  | _ => rfl

theorem Parses.value {ts : List Tok} {v : Json} (h : Parses ts v) (outer : List Frame) (rest : List Tok) :
    parse (.value outer) (ts ++ rest) = parse (.after v outer) rest := by
  obtain ⟨t, ts', rfl, _, h⟩ := h
  rw [← h outer rest, List.cons_append, parse_cons]
  rfl

theorem Parses.first {ts : List Tok} {v : Json} (h : Parses ts v) (outer : List Frame) (rest : List Tok) :
    parse (.first outer) (ts ++ rest) = parse (.after v (.arr [] :: outer)) rest := by
  obtain ⟨t, ts', rfl, h0, h⟩ := h
  rw [← h _ rest, List.cons_append, parse_cons]
  cases t <;> first | rfl | exact absurd rfl h0

theorem parses_atom {a : List Char} (h : word a = true) : Parses [.atom a] (.atom a) :=
  ⟨.atom a, [], rfl, (fun h => by cases h), fun _ _ => by simp only [stepValue, if_pos h]; rfl⟩

theorem parse_items {toks : List (List Tok)} {vs : List Json} (h : List.Forall₂ Parses toks vs) (d : List Json) (v : Json)
    (outer : List Frame) (rest : List Tok) :
    parse (.after v (.arr d :: outer)) ((toks.flatMap fun u => .comma :: u) ++ .closeArr :: rest) =
      parse (.after (.arr (d ++ v :: vs)) outer) rest := by
  induction h generalizing d v with
  | nil => rw [List.flatMap_nil, List.nil_append, parse_cons]; rfl
  | @cons u w us ws h1 _ ih =>
    rw [List.flatMap_cons, List.append_assoc, List.cons_append, parse_cons]
    show parse (.value (.arr (d ++ [v]) :: outer)) _ = _
    rw [h1.value, ih]
    simp

theorem parses_arr {toks : List (List Tok)} {vs : List Json} (h : List.Forall₂ Parses toks vs) :
    Parses (.openArr :: (sepBy toks ++ [.closeArr])) (.arr vs) := by
  refine ⟨.openArr, _, rfl, (fun h => by cases h), fun outer rest => ?_⟩
  show parse (.first outer) _ = _
  cases h with
  | nil =>
    show parse (.first outer) (.closeArr :: rest) = _
    rw [parse_cons]; rfl
  | @cons u w us ws h1 h2 =>
    have e : sepBy (u :: us) ++ [.closeArr] ++ rest = u ++ ((us.flatMap fun u => .comma :: u) ++ .closeArr :: rest) := by simp [sepBy]
    rw [e, h1.first, parse_items h2]
    simp

/-- The tokens of one field. -/
def ParsesField (ts : List Tok) (f : List Char × Json) : Prop := ∃ us, ts = .str f.1 :: .colon :: us ∧ Parses us f.2

theorem parse_fields {toks : List (List Tok)} {fs : List (List Char × Json)} (h : List.Forall₂ ParsesField toks fs)
    (d : List (List Char × Json)) (k : List Char) (v : Json) (outer : List Frame) (rest : List Tok) :
    parse (.after v (.obj d k :: outer)) ((toks.flatMap fun u => .comma :: u) ++ .closeObj :: rest) =
      parse (.after (.obj (d ++ (k, v) :: fs)) outer) rest := by
  induction h generalizing d k v with
  | nil => rw [List.flatMap_nil, List.nil_append, parse_cons]; rfl
  | @cons u f us fs h1 _ ih =>
    obtain ⟨w, rfl, h1⟩ := h1
    rw [List.flatMap_cons, List.append_assoc, List.cons_append, parse_cons]
    show parse (.name (d ++ [(k, v)]) outer) (.str f.1 :: .colon :: (w ++ _)) = _
    rw [parse_cons]
    show parse (.colon (d ++ [(k, v)]) f.1 outer) (.colon :: (w ++ _)) = _
    rw [parse_cons]
    show parse (.value (.obj (d ++ [(k, v)]) f.1 :: outer)) (w ++ _) = _
    rw [h1.value, ih]
    simp

theorem parses_obj {toks : List (List Tok)} {fs : List (List Char × Json)} (h : List.Forall₂ ParsesField toks fs) :
    Parses (.openObj :: (sepBy toks ++ [.closeObj])) (.obj fs) := by
  refine ⟨.openObj, _, rfl, (fun h => by cases h), fun outer rest => ?_⟩
  show parse (.firstName outer) _ = _
  cases h with
  | nil =>
    show parse (.firstName outer) (.closeObj :: rest) = _
    rw [parse_cons]; rfl
  | @cons u f us fs h1 h2 =>
    obtain ⟨w, rfl, h1⟩ := h1
    have e : sepBy ((.str f.1 :: .colon :: w) :: us) ++ [.closeObj] ++ rest =
        .str f.1 :: .colon :: (w ++ ((us.flatMap fun u => .comma :: u) ++ .closeObj :: rest)) := by simp [sepBy]
    rw [e, parse_cons]
    show parse (.colon [] f.1 outer) _ = _
    rw [parse_cons]
    show parse (.value (.obj [] f.1 :: outer)) _ = _
    rw [h1.value, parse_fields h2]
    simp

/-! ## JSON: texts -/

/-- The text `s` denotes the value `v`. -/
def Denotes (s : List Char) (v : Json) : Prop := ∃ ts, Lexes s ts ∧ Parses ts v

theorem denotes_atom {s : List Char} (h0 : s ≠ []) (hs : ∀ c ∈ s, atomChar c) (hw : word s = true) : Denotes s (.atom s) :=
  ⟨_, lexes_atom h0 hs, parses_atom hw⟩

theorem forall₂_split {α β γ : Type} {R : α → β → Prop} {S : β → γ → Prop} {xs : List α} {zs : List γ}
    (h : List.Forall₂ (fun x z => ∃ y, R x y ∧ S y z) xs zs) : ∃ ys, List.Forall₂ R xs ys ∧ List.Forall₂ S ys zs := by
  induction h with
  | nil => exact ⟨[], .nil, .nil⟩
  | cons h _ ih =>
    obtain ⟨y, h1, h2⟩ := h
    obtain ⟨ys, h3, h4⟩ := ih
    exact ⟨y :: ys, .cons h1 h3, .cons h2 h4⟩

theorem denotes_arr (indent : Nat) {xs : List (List Char)} {vs : List Json} (h : List.Forall₂ Denotes xs vs) :
    Denotes (jsonArray indent xs) (.arr vs) := by
  obtain ⟨toks, h1, h2⟩ := forall₂_split h
  exact ⟨_, lexes_group ⟨rfl, by decide, rfl⟩ ⟨rfl, by decide, rfl⟩ indent h1, parses_arr h2⟩

theorem denotes_obj (indent : Nat) {fs : List (String × List Char)} {vs : List (List Char × Json)}
    (h : List.Forall₂ (fun f g => g.1 = f.1.toList ∧ (∀ c ∈ f.1.toList, c ≠ '"' ∧ c ≠ '\\') ∧ Denotes f.2 g.2) fs vs) :
    Denotes (jsonObject indent fs) (.obj vs) := by
  have h' : List.Forall₂ (fun x (g : List Char × Json) => ∃ ts, Lexes x ts ∧ ParsesField ts g)
      (fs.map fun f => '"' :: (f.1.toList ++ '"' :: ':' :: ' ' :: f.2)) vs := by
    induction h with
    | nil => exact .nil
    | @cons f g _ _ h _ ih =>
      obtain ⟨h1, h2, us, h3, h4⟩ := h
      exact .cons ⟨_, lexes_field h2 h3, us, by rw [h1], h4⟩ ih
  obtain ⟨toks, h1, h2⟩ := forall₂_split h'
  exact ⟨_, lexes_group ⟨rfl, by decide, rfl⟩ ⟨rfl, by decide, rfl⟩ indent h1, parses_obj h2⟩

theorem Denotes.reads {s : List Char} {v : Json} (h : Denotes s v) : readJson s = some v := by
  obtain ⟨ts, h1, h2⟩ := h
  have := h1 [] [] (.inl rfl) rfl
  rw [List.append_nil, List.append_nil] at this
  unfold readJson
  rw [this]
  have := h2.value [] []
  rw [List.append_nil] at this
  exact this

variable {F : Type} [Flt F]

/-- Texts of numbers: not empty, made of digits, signs, points and the exponent letter (or letters of `NaN` and `inf`), and of the form
that JSON requires if the number is finite. -/
def PlainNumbers (ryu : F → List Char) : Prop :=
  ∀ x, ryu x ≠ [] ∧ (∀ c ∈ ryu x, c ∈ ("0123456789+-.eNainf".toList)) ∧ (Flt.isNaN (x - x) = false → number (ryu x) = true)

theorem plain_atom {c : Char} (h : c ∈ ("0123456789+-.eNainf".toList)) : atomChar c := by
  have key : ∀ c ∈ ("0123456789+-.eNainf".toList), blank c = false ∧ c ≠ '"' ∧ (punct c).isNone = true := by decide
  obtain ⟨h1, h2, h3⟩ := key c h
  exact ⟨h1, h2, Option.isNone_iff_eq_none.mp h3⟩

theorem denotes_number {ryu : F → List Char} (hryu : PlainNumbers ryu) (x : F) : Denotes (jsonNumber ryu x) (.atom (jsonNumber ryu x)) := by
  unfold jsonNumber
  split
  · refine denotes_atom (by decide) ?_ (by decide)
    have key : ∀ c ∈ ("null".toList), blank c = false ∧ c ≠ '"' ∧ (punct c).isNone = true := by decide
    intro c hc
    obtain ⟨h1, h2, h3⟩ := key c hc
    exact ⟨h1, h2, Option.isNone_iff_eq_none.mp h3⟩
  · rename_i h
    refine denotes_atom (hryu x).1 (fun c hc => plain_atom ((hryu x).2.1 c hc)) ?_
    unfold word
    rw [(hryu x).2.2 (Bool.not_eq_true _ ▸ h)]
    rfl

theorem denotes_numbers {ryu : F → List Char} (hryu : PlainNumbers ryu) (indent : Nat) (l : List F) :
    Denotes (jsonArray indent (l.map (jsonNumber ryu))) (numbers (jsonNumber ryu) l) := by
  refine denotes_arr indent ?_
  induction l with
  | nil => exact .nil
  | cons x l ih => exact .cons (denotes_number hryu x) ih

theorem field_ok {k : String} {v : List Char} {x : Json} (hk : k.toList.all fun c => c != '"' && c != '\\') (h : Denotes v x) :
    (k.toList, x).1 = (k, v).1.toList ∧ (∀ c ∈ (k, v).1.toList, c ≠ '"' ∧ c ≠ '\\') ∧ Denotes (k, v).2 (k.toList, x).2 := by
  refine ⟨rfl, fun c hc => ?_, h⟩
  have := List.all_eq_true.mp hk c hc
  simpa using this

theorem denotes_patch {ryu : F → List Char} (hryu : PlainNumbers ryu) (indent : Nat) (q : PatchSim F) :
    Denotes (q.json ryu indent) (patchTree (jsonNumber ryu) q) := by
  exact denotes_obj indent <|
    .cons (field_ok (by decide) (denotes_numbers hryu _ _)) <|
    .cons (field_ok (by decide) (denotes_numbers hryu _ _)) <|
    .cons (field_ok (by decide) (denotes_numbers hryu _ _)) <|
    .cons (field_ok (by decide) (denotes_number hryu _)) <|
    .cons (field_ok (by decide) (denotes_number hryu _)) <|
    .cons (field_ok (by decide) (denotes_number hryu _)) <|
    .cons (field_ok (by decide) (denotes_number hryu _)) <|
    .cons (field_ok (by decide) (denotes_number hryu _)) .nil

theorem denotes_patches {ryu : F → List Char} (hryu : PlainNumbers ryu) (i j : Nat) (l : List (PatchSim F)) :
    Denotes (jsonArray i (l.map (PatchSim.json ryu j))) (.arr (l.map (patchTree (jsonNumber ryu)))) := by
  refine denotes_arr i ?_
  induction l with
  | nil => exact .nil
  | cons q l ih => exact .cons (denotes_patch hryu _ q) ih

/-- C94: the text written for a result is JSON and denotes the object with all fields of the result under their names. -/
theorem C94_json_text {ryu : F → List Char} (hryu : PlainNumbers ryu) (r : SimilarityResult F) :
    readJson (r.json ryu 0) = some (resultTree (jsonNumber ryu) r) := by
  exact Denotes.reads <| denotes_obj 0 <|
    .cons (field_ok (by decide) (denotes_number hryu _)) <|
    .cons (field_ok (by decide) (denotes_number hryu _)) <|
    .cons (field_ok (by decide) (denotes_numbers hryu _ _)) <|
    .cons (field_ok (by decide) (denotes_numbers hryu _ _)) <|
    .cons (field_ok (by decide) (denotes_numbers hryu _ _)) <|
    .cons (field_ok (by decide) (denotes_numbers hryu _ _)) <|
    .cons (field_ok (by decide) (denotes_patches hryu _ _ _)) .nil

/-! ## CSV -/

theorem pieces_none {c : Char} {p : List Char} (h : c ∉ p) : pieces c p = [p] := by
  induction p with
  | nil => rfl
  | cons x p ih =>
    rw [pieces, if_neg (fun hx => h (by simp [hx])), ih (fun hx => h (by simp [hx]))]

theorem pieces_append {c : Char} {p : List Char} (h : c ∉ p) (rest : List Char) : pieces c (p ++ c :: rest) = p :: pieces c rest := by
  induction p with
  | nil => rw [List.nil_append, pieces, if_pos rfl]
  | cons x p ih =>
    rw [List.cons_append, pieces, if_neg (fun hx => h (by simp [hx])), ih (fun hx => h (by simp [hx]))]

theorem pieces_intercalate {c : Char} {l : List (List Char)} (h0 : l ≠ []) (h : ∀ p ∈ l, c ∉ p) : pieces c ([c].intercalate l) = l := by
  induction l with
  | nil => exact absurd rfl h0
  | cons p l ih =>
    cases l with
    | nil => simp only [List.intercalate, List.intersperse, List.flatten_cons, List.flatten_nil, List.append_nil]; exact pieces_none (h p (by simp))
    | cons q l =>
      have e : [c].intercalate (p :: q :: l) = p ++ c :: [c].intercalate (q :: l) := by
        simp [List.intercalate, List.intersperse]
      rw [e, pieces_append (h p (by simp)), ih (by simp) (fun x hx => h x (by simp [hx]))]

theorem notMem_intercalate {c d : Char} (hcd : c ≠ d) {l : List (List Char)} (h : ∀ p ∈ l, c ∉ p) : c ∉ [d].intercalate l := by
  induction l with
  | nil => simp [List.intercalate]
  | cons p l ih =>
    cases l with
    | nil => simpa [List.intercalate] using h p (by simp)
    | cons q l =>
      have e : [d].intercalate (p :: q :: l) = p ++ d :: [d].intercalate (q :: l) := by
        simp [List.intercalate, List.intersperse]
      rw [e]
      have := ih (fun x hx => h x (by simp [hx]))
      simp only [List.mem_append, List.mem_cons, not_or]
      exact ⟨h p (by simp), hcd, this⟩

theorem tableFields_text {ryu : F → List Char} (hryu : PlainNumbers ryu) {records : List (List F)} (h0 : ∀ r ∈ records, r ≠ []) :
    tableFields (csvText ryu records) = records.map fun r => r.map ryu := by
  have hno : ∀ c, c ∉ ("0123456789+-.eNainf".toList) → ∀ (r : List F), ∀ q ∈ r.map ryu, c ∉ q := by
    intro c hc r q hq
    obtain ⟨x, _, rfl⟩ := List.mem_map.mp hq
    exact fun hx => hc ((hryu x).2.1 c hx)
  have key : pieces '\n' (csvText ryu records) = (records.map fun r => [','].intercalate (r.map ryu)) ++ [[]] := by
    unfold csvText
    clear h0
    induction records with
    | nil => rfl
    | cons r rs ih =>
      rw [List.flatMap_cons, List.append_assoc, List.singleton_append,
        pieces_append (notMem_intercalate (by decide) (hno _ (by decide) r)), ih]
      rfl
  unfold tableFields
  rw [key, List.dropLast_concat, List.map_map]
  refine List.map_congr_left fun r hr => ?_
  exact pieces_intercalate (by simpa using h0 r hr) (hno _ (by decide) r)

/-- All lists of a patch result have `n` entries. -/
def PatchShape {α : Type} (n : Nat) (q : PatchSim α) : Prop :=
  q.freqBandMeans.length = n ∧ q.freqBandStddevs.length = n ∧ q.freqBandDegEnergy.length = n

theorem readPatch_fields {α : Type} {n : Nat} {q : PatchSim α} (h : PatchShape n q) : readPatch n q.fields = some q := by
  obtain ⟨a, b, c, s, x1, x2, x3, x4⟩ := q
  obtain ⟨rfl, h2, h3⟩ := h
  dsimp only at h2 h3
  unfold readPatch PatchSim.fields
  dsimp only
  have e : (a ++ b ++ c ++ [s, x1, x2, x3, x4]).drop (3 * a.length) = [s, x1, x2, x3, x4] :=
    List.drop_left' (by simp only [List.length_append]; omega)
  have e2 : ((a ++ b ++ c ++ [s, x1, x2, x3, x4]).drop a.length).take a.length = b := by
    rw [List.append_assoc, List.append_assoc, List.drop_left, List.take_left' h2]
  have e3 : ((a ++ b ++ c ++ [s, x1, x2, x3, x4]).drop (2 * a.length)).take a.length = c := by
    rw [List.append_assoc (a ++ b), List.drop_left' (by simp only [List.length_append]; omega), List.take_left' h3]
  have e1 : (a ++ b ++ c ++ [s, x1, x2, x3, x4]).take a.length = a := by
    rw [List.append_assoc, List.append_assoc, List.take_left]
  rw [e, e1, e2, e3]

theorem patchFields_length {α : Type} {n : Nat} {q : PatchSim α} (h : PatchShape n q) : q.fields.length = 3 * n + 5 := by
  obtain ⟨h1, h2, h3⟩ := h
  simp only [PatchSim.fields, List.length_append, h1, h2, h3, List.length_cons, List.length_nil]; omega

theorem readPatches_fields {α : Type} {n : Nat} {qs : List (PatchSim α)} (h : ∀ q ∈ qs, PatchShape n q) :
    readPatches n qs.length (qs.flatMap PatchSim.fields) = some qs := by
  induction qs with
  | nil => rfl
  | cons q qs ih =>
    have hq := h q (by simp)
    rw [List.length_cons, List.flatMap_cons, readPatches, List.take_left' (patchFields_length hq), List.drop_left' (patchFields_length hq),
      readPatch_fields hq, ih (fun q hq => h q (by simp [hq]))]
    rfl

theorem readRecord_fields {α : Type} {n : Nat} {r : SimilarityResult α} (h1 : r.fvnsim.length = n) (h2 : r.fstdnsim.length = n)
    (h3 : r.fvdegenergy.length = n) (h4 : r.centerFreqBands.length = n) (hq : ∀ q ∈ r.patchSims, PatchShape n q) :
    readRecord n r.fields = some r := by
  obtain ⟨mos, vn, a, b, c, d, qs⟩ := r
  dsimp only at h1 h2 h3 h4 hq
  have hl : ∀ l : List (PatchSim α), (∀ q ∈ l, PatchShape n q) → (l.flatMap PatchSim.fields).length = l.length * (3 * n + 5) := by
    intro l hl
    induction l with
    | nil => simp
    | cons q l ih =>
      rw [List.flatMap_cons, List.length_append, patchFields_length (hl q (by simp)), ih (fun q hq => hl q (by simp [hq])), List.length_cons]
      ring
  have hlen := hl qs hq
  subst h1
  show readRecord a.length (mos :: vn :: (a ++ b ++ c ++ d ++ qs.flatMap PatchSim.fields)) = _
  unfold readRecord
  have hn : ((a ++ b ++ c ++ d ++ qs.flatMap PatchSim.fields).length - 4 * a.length) / (3 * a.length + 5) = qs.length := by
    simp only [List.length_append, hlen, h2, h3, h4]
    rw [show a.length + a.length + a.length + a.length + qs.length * (3 * a.length + 5) - 4 * a.length = qs.length * (3 * a.length + 5) by omega]
    exact Nat.mul_div_cancel _ (by omega)
  have e0 : (a ++ b ++ c ++ d ++ qs.flatMap PatchSim.fields).drop (4 * a.length) = qs.flatMap PatchSim.fields :=
    List.drop_left' (by simp only [List.length_append]; omega)
  have e1 : (a ++ b ++ c ++ d ++ qs.flatMap PatchSim.fields).take a.length = a := by
    simp only [List.append_assoc, List.take_left]
  have e2 : ((a ++ b ++ c ++ d ++ qs.flatMap PatchSim.fields).drop a.length).take a.length = b := by
    simp only [List.append_assoc, List.drop_left]
    exact List.take_left' h2
  have e3 : ((a ++ b ++ c ++ d ++ qs.flatMap PatchSim.fields).drop (2 * a.length)).take a.length = c := by
    rw [List.append_assoc, List.append_assoc (a ++ b), List.drop_left' (by simp only [List.length_append]; omega), List.take_left' h3]
  have e4 : ((a ++ b ++ c ++ d ++ qs.flatMap PatchSim.fields).drop (3 * a.length)).take a.length = d := by
    rw [List.append_assoc (a ++ b ++ c), List.drop_left' (by simp only [List.length_append]; omega), List.take_left' h4]
  dsimp only
  rw [hn, e0, e1, e2, e3, e4, readPatches_fields hq]
  rfl

theorem fields_map {α β : Type} (f : α → β) (r : SimilarityResult α) : r.fields.map f = (mapResult f r).fields := by
  have hq : ∀ q : PatchSim α, q.fields.map f = (mapPatch f q).fields := fun q => by simp [PatchSim.fields, mapPatch]
  have hqs : ∀ l : List (PatchSim α), (l.flatMap PatchSim.fields).map f = (l.map (mapPatch f)).flatMap PatchSim.fields := by
    intro l
    induction l with
    | nil => rfl
    | cons q l ih => rw [List.flatMap_cons, List.map_append, hq, ih, List.map_cons, List.flatMap_cons]
  simp [SimilarityResult.fields, mapResult, hqs]

/-- The text a file holds. -/
def FileContent.text (ryu : F → List Char) : FileContent F → Option (List Char)
  | .json o => some (debugText ryu o)
  | .table records => some (csvText ryu records)
  | _ => none

variable [RustFft F]

/-- C94: when the tool ends normally, reading the file of `--results_csv` back gives the results of all pairs, in order, each number as
its text: nothing is lost, merged or reordered. -/
theorem C94_csv {ryu : F → List Char} (hryu : PlainNumbers ryu) {p : Profile} {world : World F} {csv : String → CsvContent}
    {wr : String → Bool} {a : CliArgs} (h : (cliMain p world csv wr a).2 = .ok ()) {path : String} (hpath : a.resultsCsv = some path) :
    ∃ pairs rs text, cliCompute p world csv a = .ok (pairs, rs) ∧
      (holds (cliMain p world csv wr a).1 path).text ryu = some text ∧
      readResults (match a.variant with | .wideband _ => 21 | .fullband _ => 32) text = some (rs.map (mapResult ryu)) := by
  obtain ⟨pairs, rs, hc, h1, h2⟩ := C91_contents h
  refine ⟨pairs, rs, _, hc, by rw [h1 path hpath]; rfl, ?_⟩
  have hs := C05_tool hc
  unfold readResults
  rw [tableFields_text hryu (by
    intro l hl
    obtain ⟨r, _, rfl⟩ := List.mem_map.mp hl
    simp [SimilarityResult.fields]), List.map_map]
  generalize hn : (match a.variant with | .wideband _ => 21 | .fullband _ => 32) = n
  have each : ∀ r ∈ rs, readRecord n (r.fields.map ryu) = some (mapResult ryu r) := by
    intro r hr
    obtain ⟨s1, s2, s3, s4, _, s6⟩ := hs r hr n hn.symm
    rw [fields_map]
    refine readRecord_fields ?_ ?_ ?_ ?_ ?_
    · simpa [mapResult] using s1
    · simpa [mapResult] using s2
    · simpa [mapResult] using s3
    · simpa [mapResult] using s4
    · intro q hq
      obtain ⟨q', hq', rfl⟩ := List.mem_map.mp hq
      obtain ⟨t1, t2, t3⟩ := s6 q' hq'
      exact ⟨by simpa [mapPatch] using t1, by simpa [mapPatch] using t2, by simpa [mapPatch] using t3⟩
  clear hc h1 h2 hs
  induction rs with
  | nil => rfl
  | cons r rs ih =>
    rw [List.map_cons, List.mapM_cons, ih (fun r hr => each r (by simp [hr]))]
    show (readRecord n (r.fields.map ryu)).bind _ = _
    rw [each r (by simp)]
    rfl

/-- C94: when the tool ends normally, the file of `--output_debug` is JSON and denotes the object with all fields of the last result
under their names; it is empty if there is no pair. -/
theorem C94_debug {ryu : F → List Char} (hryu : PlainNumbers ryu) {p : Profile} {world : World F} {csv : String → CsvContent}
    {wr : String → Bool} {a : CliArgs} (h : (cliMain p world csv wr a).2 = .ok ()) {path : String} (hpath : a.outputDebug = some path)
    (hne : a.resultsCsv ≠ some path) :
    ∃ pairs rs text, cliCompute p world csv a = .ok (pairs, rs) ∧
      (holds (cliMain p world csv wr a).1 path).text ryu = some text ∧
      (rs = [] → text = []) ∧ ∀ r, rs.getLast? = some r → readJson text = some (resultTree (jsonNumber ryu) r) := by
  obtain ⟨pairs, rs, hc, _, h2⟩ := C91_contents h
  refine ⟨pairs, rs, _, hc, by rw [h2 path hpath hne]; rfl, ?_, ?_⟩
  · rintro rfl; rfl
  · intro r hr
    rw [hr]
    exact C94_json_text hryu r

/-! ## Numbers that are not finite -/

section
open Ieee
variable {G : Type} [Flt G] [Ieee G]

theorem sub_self_nan (x : G) : Flt.isNaN (x - x) = true ↔ ∀ v : ℝ, val x ≠ .fin v := by
  rw [isNaN_val, val_sub]
  cases hx : val x with
  | nan => simp [Val.add]
  | inf s => cases s <;> simp [Val.neg, Val.add]
  | fin v =>
    simp only [Val.neg, Val.add, add_neg_cancel, rnd_zero]
    simp

/-- C94: the word `null` stands in the debug file exactly for the values that are not finite numbers; a finite number stands there
with the same text as in the results file. -/
theorem C94_null {ryu : G → List Char} (hryu : PlainNumbers ryu) (x : G) :
    (jsonNumber ryu x = "null".toList ↔ ∀ v : ℝ, val x ≠ .fin v) ∧ ((∃ v : ℝ, val x = .fin v) → jsonNumber ryu x = ryu x) := by
  constructor
  · rw [← sub_self_nan]
    unfold jsonNumber
    split
    case isTrue h => simp [h]
    case isFalse h =>
      refine ⟨fun hn => ?_, fun h' => absurd h' h⟩
      exact absurd ((hryu x).2.1 'u' (by rw [hn]; decide)) (by decide)
  · rintro ⟨v, hv⟩
    unfold jsonNumber
    rw [if_neg]
    rw [sub_self_nan]
    exact fun h => h v hv

theorem numbers_congr {l : List G} {f g : G → List Char} (h : ∀ x ∈ l, f x = g x) : Spec.numbers f l = Spec.numbers g l := by
  unfold Spec.numbers
  rw [List.map_congr_left (fun x hx => by rw [h x hx])]

/-- C94: if all numbers of a result are finite (see C88), its JSON text holds exactly the texts that its CSV record holds, under the names
of the fields, and no `null`. -/
theorem C94_finite {ryu : G → List Char} (hryu : PlainNumbers ryu) {r : SimilarityResult G} (h : AllNumbers r) :
    readJson (r.json ryu 0) = some (resultTree ryu r) := by
  rw [C94_json_text hryu]
  have hj : ∀ x ∈ r.numbers, jsonNumber ryu x = ryu x := fun x hx => (C94_null hryu x).2 (h.finite x hx)
  have hpatch : r.patchSims.map (patchTree (jsonNumber ryu)) = r.patchSims.map (patchTree ryu) := by
    refine List.map_congr_left fun q hq => ?_
    have hq' : ∀ x ∈ q.numbers, jsonNumber ryu x = ryu x := by
      intro x hx
      refine hj x ?_
      unfold SimilarityResult.numbers
      simp only [List.mem_cons, List.mem_append, List.mem_flatMap]
      exact .inr (.inr (.inr ⟨q, hq, hx⟩))
    unfold PatchSim.numbers at hq'
    unfold patchTree
    rw [numbers_congr (l := q.freqBandMeans) (fun x hx => hq' x (by simp [hx])), numbers_congr (l := q.freqBandStddevs) (fun x hx => hq' x (by simp [hx])),
      numbers_congr (l := q.freqBandDegEnergy) (fun x hx => hq' x (by simp [hx])), hq' q.similarity (by simp), hq' q.refStart (by simp),
      hq' q.refEnd (by simp), hq' q.degStart (by simp), hq' q.degEnd (by simp)]
  unfold SimilarityResult.numbers at hj
  unfold resultTree
  rw [hpatch, numbers_congr (l := r.fvnsim) (fun x hx => hj x (by simp [hx])), numbers_congr (l := r.fstdnsim) (fun x hx => hj x (by simp [hx])),
    numbers_congr (l := r.fvdegenergy) (fun x hx => hj x (by simp [hx])), numbers_congr (l := r.centerFreqBands) (fun x hx => hj x (by simp [hx])),
    hj r.moslqo (by simp), hj r.vnsim (by simp)]

end

/-! ## Examples -/

/-- A formatter of the kind assumed: it writes zero and one exactly and everything else as `-1.5e-7`. -/
noncomputable def demoText (x : ℝ) : List Char := if x = 0 then "0.0".toList else if x = 1 then "1.0".toList else "-1.5e-7".toList

theorem demoText_plain : PlainNumbers demoText := by
  intro x
  unfold demoText
  split
  · exact ⟨by decide, by decide, fun _ => by decide⟩
  · split
    · exact ⟨by decide, by decide, fun _ => by decide⟩
    · exact ⟨by decide, by decide, fun _ => by decide⟩

/-- The hypotheses of `C94_csv` and `C94_debug`: the batch of two pairs that writes both files. -/
example (p : Profile) : PlainNumbers demoText ∧
    (cliMain p demoWorld (demoCsv "ref.wav" "ref.wav" "ref.wav" "ref.wav") (fun _ => true) demoArgs).2 = .ok () ∧
    demoArgs.resultsCsv = some "out.csv" ∧ demoArgs.outputDebug = some "out.json" ∧ demoArgs.resultsCsv ≠ some "out.json" := by
  obtain ⟨_, m', res, h⟩ := fullband_run p (le_refl 40000) (by omega) (le_refl 40000) (by omega) demo_i16.1 demo_i16.1
    demo_ref demo_ref (path := "model.txt") rfl (m := demoManager) demo_new
  have he : EachAlone p demoWorld demoManager [⟨"ref.wav", "ref.wav"⟩, ⟨"ref.wav", "ref.wav"⟩] [res, res] := by
    unfold EachAlone
    refine .cons ⟨m', ?_⟩ (.cons ⟨m', ?_⟩ .nil)
    · exact h
    · exact h
  have hs : ∀ x ∈ [res, res], ∀ y ∈ [res, res], x.patchSims.length = y.patchSims.length := by
    intro x hx y hy
    simp only [List.mem_cons, List.not_mem_nil, or_false, or_self] at hx hy
    rw [hx, hy]
  have hp := demo_pairs "ref.wav" "ref.wav" "ref.wav" "ref.wav"
  have hm := demo_new
  refine ⟨demoText_plain, ?_, rfl, rfl, by decide⟩
  generalize demoWorld = world at *
  generalize demoManager = m at *
  exact (C58_csv_patch_counts hp hm he (path := "out.csv") rfl (fun _ => rfl)).2 hs

/-- The reader is strict: `NaN`, a missing comma, a comma too many, an unfinished array and a second value are no JSON. -/
example : readJson "NaN".toList = none ∧ readJson "[1 2]".toList = none ∧ readJson "[1,]".toList = none ∧ readJson "[1".toList = none ∧ readJson "1 2".toList = none ∧
    readJson "{\"a\" 1}".toList = none ∧ readJson "{\"a\": [1, null], \"b\": {}}".toList =
      some (.obj [(['a'], .arr [.atom ['1'], .atom "null".toList]), (['b'], .obj [])]) := by
  exact ⟨rfl, rfl, rfl, rfl, rfl, rfl, rfl⟩

end Visqol

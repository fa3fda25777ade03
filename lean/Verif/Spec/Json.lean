/-! # A reader of JSON texts

A strict reader of the JSON grammar, for texts whose strings contain no escapes.  Numbers, `true`, `false` and `null` are atoms, kept as text;
any other word is rejected. -/

namespace Visqol.Spec

inductive Json where
  | atom (text : List Char)
  | str (text : List Char)
  | arr (items : List Json)
  | obj (fields : List (List Char × Json))

/-- Tokens. -/
inductive Tok where
  | openArr | closeArr | openObj | closeObj | comma | colon
  | str (text : List Char)
  | atom (text : List Char)

def blank (c : Char) : Bool := c == ' ' || c == '\n' || c == '\t' || c == '\r'

def punct : Char → Option Tok
  | '[' => some .openArr
  | ']' => some .closeArr
  | '{' => some .openObj
  | '}' => some .closeObj
  | ',' => some .comma
  | ':' => some .colon
  | _ => none

inductive LexState where
  | between
  | inStr (sofar : List Char)
  | inAtom (sofar : List Char)

/-- Splits a text into tokens. -/
def lex : LexState → List Char → Option (List Tok)
  | .between, [] => some []
  | .inAtom a, [] => some [.atom a]
  | .inStr _, [] => none
  | .between, c :: cs =>
    if blank c then lex .between cs
    else if c = '"' then lex (.inStr []) cs
    else match punct c with
      | some t => (lex .between cs).map (t :: ·)
      | none => lex (.inAtom [c]) cs
  | .inStr a, c :: cs =>
    if c = '"' then (lex .between cs).map (.str a :: ·)
    else if c = '\\' then none
    else lex (.inStr (a ++ [c])) cs
  | .inAtom a, c :: cs =>
    if blank c then (lex .between cs).map (.atom a :: ·)
    else if c = '"' then none
    else match punct c with
      | some t => (lex .between cs).map fun ts => .atom a :: t :: ts
      | none => lex (.inAtom (a ++ [c])) cs

/-! ## Numbers: `-? (0 | [1-9][0-9]*) (. [0-9]+)? ([eE] [+-]? [0-9]+)?` -/

def digit (c : Char) : Bool := '0' ≤ c && c ≤ '9'

def digits (s : List Char) : Bool := !s.isEmpty && s.all digit

def exponent : List Char → Bool
  | [] => true
  | c :: s => (c == 'e' || c == 'E') && match s with
    | '+' :: s => digits s
    | '-' :: s => digits s
    | s => digits s

def fraction : List Char → Bool
  | '.' :: s => digits (s.takeWhile digit) && exponent (s.dropWhile digit)
  | s => exponent s

def unsigned : List Char → Bool
  | [] => false
  | '0' :: s => fraction s
  | c :: s => digit c && fraction (s.dropWhile digit)

def number : List Char → Bool
  | '-' :: s => unsigned s
  | s => unsigned s

/-- The words of JSON. -/
def word (s : List Char) : Bool := number s || s == "null".toList || s == "true".toList || s == "false".toList

/-- What encloses the value being read: an array with the items before it, or an object with the fields before it and its name. -/
inductive Frame where
  | arr (done : List Json)
  | obj (done : List (List Char × Json)) (name : List Char)

inductive State where
  /-- a value must follow -/
  | value (outer : List Frame)
  /-- just after `[` -/
  | first (outer : List Frame)
  /-- just after `{` -/
  | firstName (outer : List Frame)
  /-- after a comma in an object -/
  | name (done : List (List Char × Json)) (outer : List Frame)
  /-- after the name of a field -/
  | colon (done : List (List Char × Json)) (name : List Char) (outer : List Frame)
  /-- a value is complete -/
  | after (v : Json) (outer : List Frame)

/-- A token where a value must follow. -/
def stepValue (outer : List Frame) : Tok → Option State
  | .atom a => if word a then some (.after (.atom a) outer) else none
  | .str a => some (.after (.str a) outer)
  | .openArr => some (.first outer)
  | .openObj => some (.firstName outer)
  | _ => none

def step : State → Tok → Option State
  | .value s, t => stepValue s t
  | .first s, .closeArr => some (.after (.arr []) s)
  | .first s, t => stepValue (.arr [] :: s) t
  | .firstName s, .closeObj => some (.after (.obj []) s)
  | .firstName s, .str k => some (.colon [] k s)
  | .name d s, .str k => some (.colon d k s)
  | .colon d k s, .colon => some (.value (.obj d k :: s))
  | .after v (.arr d :: s), .comma => some (.value (.arr (d ++ [v]) :: s))
  | .after v (.arr d :: s), .closeArr => some (.after (.arr (d ++ [v])) s)
  | .after v (.obj d k :: s), .comma => some (.name (d ++ [(k, v)]) s)
  | .after v (.obj d k :: s), .closeObj => some (.after (.obj (d ++ [(k, v)])) s)
  | _, _ => none

def parse : State → List Tok → Option Json
  | .after v [], [] => some v
  | _, [] => none
  | s, t :: ts => (step s t).bind (parse · ts)

/-- The value denoted by a JSON text. -/
def readJson (text : List Char) : Option Json := (lex .between text).bind (parse (.value []))

end Visqol.Spec

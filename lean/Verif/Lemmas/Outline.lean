import Verif.Spec.Script
import Verif.Model.Boot

/-!
# An outline of what loading source text does

An outline keeps what later text depends on: names, what words do, which programs were compiled where, and
cells of memory that are known. Addresses count from the start of the data space. Whether the outline is right
is the subject of `Verif.Lemmas.Stand`.
-/

namespace Verif
open Spec

/-- A value on the data stack: a number, or an address counted from the start of the data space. -/
inductive Val where
  | num (n : Nat)
  | addr (a : Nat)
  deriving DecidableEq

def Val.cell (b : Nat) : Val → Cell
  | .num n => BitVec.ofNat 64 n
  | .addr a => toCell (b + a)

/-- What is known of a word. -/
structure Row where
  key : Nat
  ix : Nat
  action : Prim
  comp : CompSem
  imm : Bool
  co : Bool
  dfa : Nat
  deriving DecidableEq

/-- A program that was compiled. -/
structure Def where
  ix : Nat
  dfa : Nat
  prog : Stmt

structure Outline where
  /-- the words, the newest first, without word 0 -/
  rows : List Row
  count : Nat
  here : Nat
  /-- memory below is not written any more -/
  top : Nat
  defs : List Def
  facts : List (Nat × Nat)
  stack : List Val
  text : List Nat

/-! ### Names -/

def lowerCode (c : Nat) : Nat := if 65 ≤ c ∧ c ≤ 90 then c + 32 else c

/-- A number that stands for a name up to the case of letters. -/
def keyOf (l : List Nat) (k : Nat) : Nat :=
  match l with
  | [] => k
  | c :: r => keyOf r (k * 256 + lowerCode c + 1)

def codesOf (bs : List Byte) : List Nat := bs.map (·.toNat)

def lookup (k : Nat) : List Row → Option Nat
  | [] => none
  | r :: rs => if Nat.beq r.key k then some r.ix else lookup k rs

def rowAt (i : Nat) : List Row → Option Row
  | [] => none
  | r :: rs => if Nat.beq r.ix i then some r else rowAt i rs

/-! ### Text -/

def isBlank (c : Nat) : Bool := Nat.beq c 32 || Nat.beq c 10 || Nat.beq c 9 || Nat.beq c 13

def skipBlanks : List Nat → List Nat
  | [] => []
  | c :: r => if isBlank c then skipBlanks r else c :: r

def upToBlank (acc : List Nat) : List Nat → List Nat × List Nat
  | [] => (acc.reverse, [])
  | c :: r => if isBlank c then (acc.reverse, c :: r) else upToBlank (c :: acc) r

/-- The next token and what follows. -/
def readTok (text : List Nat) : List Nat × List Nat := upToBlank [] (skipBlanks text)

/-- What follows the next code `d`. -/
def skipPast (d : Nat) : List Nat → List Nat
  | [] => []
  | c :: r => if Nat.beq c d then r else skipPast d r

def digitsOnly : List Nat → Bool
  | [] => true
  | c :: r => Nat.ble 48 c && Nat.ble c 57 && digitsOnly r

def decimalOf (acc : Nat) : List Nat → Nat
  | [] => acc
  | c :: r => decimalOf (acc * 10 + (c - 48)) r

/-- The value of a number token: decimal digits, `$7f` or `-2`. -/
def numberOf (tok : List Nat) : Option Nat :=
  if digitsOnly tok then some (decimalOf 0 tok)
  else if tok = [36, 55, 102] then some 127
  else if tok = [45, 50] then some (2 ^ 64 - 2) else none

/-- What is before the next quote and what follows it. -/
def upToQuote (acc : List Nat) : List Nat → Option (List Nat × List Nat)
  | [] => none
  | c :: r => if Nat.beq c 34 then some (acc.reverse, r) else upToQuote (c :: acc) r

/-! ### What words do that are interpreted -/

/-- How much memory there must be. -/
def outlineRoom : Nat := 12288

/-- How many words there are before the text is loaded. -/
def outlineBase : Nat := 243

def fit (l : Outline) : Option Outline := if l.here ≤ outlineRoom then some l else none

def pushVal (v : Val) (l : Outline) : Option Outline :=
  if l.stack.length < 60 then some { l with stack := v :: l.stack } else none

/-- The next token of the outline's text, which must not be the end. -/
def takeTok (l : Outline) : Option (List Nat × Outline) :=
  let p := readTok l.text
  match p.1 with
  | [] => none
  | c :: t => some (c :: t, { l with text := p.2 })

/-- One more word. -/
def addRow (tok : List Nat) (p : Prim) (l : Outline) : Outline :=
  let d := roundUp8 (l.here + 8 + tok.length)
  { l with rows := ⟨keyOf tok 0, l.count, p, .word, false, false, d⟩ :: l.rows, count := l.count + 1, here := d, top := d }

/-- The newest word changes. -/
def alterRow (f : Row → Row) (l : Outline) : Option Outline :=
  match l.rows with
  | r :: rs => if Nat.beq (r.ix + 1) l.count && Nat.ble outlineBase r.ix then some { l with rows := f r :: rs } else none
  | [] => none

def known (a : Nat) : Val → List (Nat × Nat)
  | .num n => [(a, n)]
  | .addr _ => []

/-- One more cell. -/
def addCell (v : Val) (l : Outline) : Option Outline :=
  fit { l with here := l.here + 8, facts := known l.here v ++ l.facts }

/-- The name is not in the outline yet. -/
def anew (t : List Nat) (l : Outline) (r : Option Outline) : Option Outline :=
  match lookup (keyOf t 0) l.rows with
  | none => r
  | some _ => none

theorem anew_some {t : List Nat} {l l' : Outline} {r : Option Outline} (h : anew t l r = some l') :
    lookup (keyOf t 0) l.rows = none ∧ r = some l' := by
  unfold anew at h
  split at h
  · rename_i e; exact ⟨e, h⟩
  · cases h

def primStep (i : Nat) : Prim → Outline → Option Outline
  | .core .create, l => do
    let (t, l) ← takeTok l
    anew t l (fit (addRow t (.core .pVar) l))
  | .core .constant, l =>
    match l.stack with
    | v :: st => do
      let (t, l) ← takeTok { l with stack := st }
      anew t l (addCell v (addRow t (.core .pConst) l))
    | _ => none
  | .core .comma, l =>
    match l.stack with
    | v :: st => addCell v { l with stack := st }
    | _ => none
  | .core .allot, l =>
    match l.stack with
    | .num n :: st => fit { l with stack := st, here := l.here + n }
    | _ => none
  | .core .store, l =>
    match l.stack with
    | .addr a :: v :: st =>
      if Nat.ble l.top a && Nat.ble (a + 8) l.here && Nat.ble 1 l.top then
        some { l with
          stack := st
          facts := known a v ++ l.facts.filter fun f => Nat.ble (f.1 + 8) a || Nat.ble (a + 8) f.1 }
      else none
    | _ => none
  | .core .tick, l => do
    let (t, l) ← takeTok l
    let i ← lookup (keyOf t 0) l.rows
    pushVal (.num i) l
  | .core .cells, l =>
    match l.stack with
    | .num n :: st => if Nat.ble n 1000 then some { l with stack := .num (n * 8) :: st } else none
    | _ => none
  | .core .star, l =>
    match l.stack with
    | .num m :: .num n :: st => some { l with stack := .num (n * m) :: st }
    | _ => none
  | .core .toBody, l =>
    match l.stack with
    | .num n :: st => do
      let r ← rowAt n l.rows
      some { l with stack := .addr r.dfa :: st }
    | _ => none
  | .core .immediate, l => alterRow (fun r => { r with imm := true }) l
  | .core .compileOnly, l => alterRow (fun r => { r with co := true }) l
  | .core .backslash, l => if l.stack.length < 60 then some { l with text := skipPast 10 l.text } else none
  | .core .pVar, l => do
    let r ← rowAt i l.rows
    pushVal (.addr r.dfa) l
  | .core .doesRt, l =>
    match l.rows with
    | r :: _ =>
      if r.action = .core .pVar then do
        let l ← fit { l with here := l.here + 8 }
        alterRow (fun r => { r with action := .core .doesAction }) l
      else none
    | [] => none
  | _, _ => none

/-- Running straight code. -/
def runItems : List Item → Outline → Option Outline
  | [], _ => none
  | .lit v :: is, l => do
    let l ← pushVal (.num v.toNat) l
    runItems is l
  | .word i :: is, l => do
    let r ← rowAt i l.rows
    if r.action = .core .exit then some l
    else do
      let l ← primStep i r.action l
      runItems is l
  | _ :: _, _ => none

/-- Programs without control structures. -/
def straight : Stmt → Bool
  | .skip => true
  | .seq p q => straight p && straight q
  | .word _ => true
  | .lit _ => true
  | .exit => true
  | _ => false

def defAt (i : Nat) : List Def → Option Def
  | [] => none
  | d :: ds => if Nat.beq d.ix i then some d else defAt i ds

/-! ### Bodies of definitions -/

/-- Whether the words are compiled as calls. -/
def plainRows (rows : List Row) : List Nat → Bool
  | [] => true
  | i :: is =>
    match rowAt i rows with
    | some r => decide (r.comp = .word) && plainRows rows is
    | none => false

/-- What a quoting word makes of the text after it: items and the text that is left. -/
def quote (R : Refs) (l : Outline) (p : Prim) (text : List Nat) : Option (List Item × List Nat) :=
  match p with
  | .core .paren => some ([], skipPast 41 text)
  | .core .backslash => some ([], skipPast 10 text)
  | .core .bracketChar =>
    let q := readTok text
    match q.1 with
    | [] => none
    | c :: _ => some ([.lit (BitVec.ofNat 64 c)], q.2)
  | .core .bracketTick =>
    let q := readTok text
    match q.1 with
    | [] => none
    | c :: t => do
      let i ← lookup (keyOf (c :: t) 0) l.rows
      some ([.lit (toCell i)], q.2)
  | .core .postpone =>
    let q := readTok text
    match q.1 with
    | [] => none
    | c :: t => do
      let i ← lookup (keyOf (c :: t) 0) l.rows
      some ([.lit (toCell i), .word R.postponeRt], q.2)
  | .out .dotQuote =>
    match text with
    | [] => none
    | c :: r =>
      if isBlank c && plainRows l.rows [R.type] then do
        let q ← upToQuote [] r
        some ([.str (q.1.map (BitVec.ofNat 8)), .word R.type], q.2)
      else none
  | .core .does => some ([.word R.doesRt, .word R.exit], text)
  | .core .immIf => some ([.imm .immIf], text)
  | .core .immElse => some ([.imm .immElse], text)
  | .core .immThen => some ([.imm .immThen], text)
  | .core .immBegin => some ([.imm .immBegin], text)
  | .core .immWhile => some ([.imm .immWhile], text)
  | .core .immRepeat => some ([.imm .immRepeat], text)
  | .core .immUntil => some ([.imm .immUntil], text)
  | .core .immAgain => some ([.imm .immAgain], text)
  | .core .immDo => some ([.imm .immDo], text)
  | .core .immLoop => some ([.imm .immLoop], text)
  | _ => none

/-- The items of a body up to `;`, the last first, and the text after the `;`. Floats are marked by the float 0. -/
def bodyItems (R : Refs) (l : Outline) : Nat → List Item → List Nat → Option (List Item × List Nat)
  | 0, _, _ => none
  | n + 1, acc, text =>
    let q := readTok text
    match q.1 with
    | [] => none
    | c :: t =>
      match lookup (keyOf (c :: t) 0) l.rows with
      | some i =>
        match rowAt i l.rows with
        | none => none
        | some r =>
          if r.imm then
            if r.action = .core .semicolon then some (acc.reverse, q.2)
            else if r.action = .core .nest then
              match defAt i l.defs with
              | some ⟨_, _, .skip⟩ => bodyItems R l n acc q.2
              | _ => none
            else
              match quote R l r.action q.2 with
              | some (is, rest) => bodyItems R l n (is.reverse ++ acc) rest
              | none => none
          else bodyItems R l n (.word i :: acc) q.2
      | none =>
        match numberOf (c :: t) with
        | some v => bodyItems R l n (.lit (BitVec.ofNat 64 v) :: acc) q.2
        | none => if c :: t = [48, 101] then bodyItems R l n (.flt 0 :: acc) q.2 else none

/-- A sequence of items as a program, up to a word that closes a structure. -/
def parseStmt : Nat → List Item → Option (Stmt × List Item)
  | 0, _ => none
  | _ + 1, [] => some (.skip, [])
  | n + 1, .word i :: is => (parseStmt n is).map fun x => (.seq (.word i) x.1, x.2)
  | n + 1, .lit v :: is => (parseStmt n is).map fun x => (.seq (.lit v) x.1, x.2)
  | n + 1, .flt v :: is => (parseStmt n is).map fun x => (.seq (.flt v) x.1, x.2)
  | n + 1, .imm .immIf :: is =>
    match parseStmt n is with
    | some (p, .imm .immThen :: is) => (parseStmt n is).map fun x => (.seq (.ifThen p) x.1, x.2)
    | some (p, .imm .immElse :: is) =>
      match parseStmt n is with
      | some (q, .imm .immThen :: is) => (parseStmt n is).map fun x => (.seq (.ifElse p q) x.1, x.2)
      | _ => none
    | _ => none
  | n + 1, .imm .immBegin :: is =>
    match parseStmt n is with
    | some (p, .imm .immUntil :: is) => (parseStmt n is).map fun x => (.seq (.untilLoop p) x.1, x.2)
    | some (p, .imm .immAgain :: is) => (parseStmt n is).map fun x => (.seq (.againLoop p) x.1, x.2)
    | some (p, .imm .immWhile :: is) =>
      match parseStmt n is with
      | some (q, .imm .immRepeat :: is) => (parseStmt n is).map fun x => (.seq (.whileLoop p q) x.1, x.2)
      | _ => none
    | _ => none
  | n + 1, .imm .immDo :: is =>
    match parseStmt n is with
    | some (p, .imm .immLoop :: is) => (parseStmt n is).map fun x => (.seq (.loop false false 0 p) x.1, x.2)
    | _ => none
  | _ + 1, is => some (.skip, is)

def progOf (specs : List (Nat × Stmt)) (k : Nat) (items : List Item) : Option Stmt :=
  match specs with
  | [] => (parseStmt 100 items).map (·.1)
  | e :: es => if Nat.beq e.1 k then some e.2 else progOf es k items

/-- Only calls and literals. -/
def flat : Stmt → Bool
  | .skip => true
  | .seq p q => flat p && flat q
  | .word _ => true
  | .lit _ => true
  | .flt _ => true
  | _ => false

def Item.isFlt : Item → Bool
  | .flt _ => true
  | _ => false

/-- A definition, after its `:`. -/
def defineStep (R : Refs) (lv : Nat) (specs : List (Nat × Stmt)) (l : Outline) : Option Outline := do
  let (t, l1) ← takeTok l
  let (items, rest) ← bodyItems R l 300 [] l1.text
  let p ← progOf specs (keyOf t 0) items
  let d := roundUp8 (l.here + 8 + t.length)
  let e := p.next d + 8
  if decide (p.items R lv = items) && plainRows l.rows p.calls && p.leavesOk false && Nat.ble p.height 64 && Nat.ble e outlineRoom &&
      Nat.ble l.stack.length 60 && (lookup (keyOf t 0) l.rows).isNone then
    let l2 : Outline := { l with
      rows := ⟨keyOf t 0, l.count, .core .nest, .word, false, false, d⟩ :: l.rows
      count := l.count + 1, here := e, top := e, text := rest }
    if items.any Item.isFlt then
      if flat p then some l2 else none
    else some { l2 with defs := ⟨l.count, d, p⟩ :: l.defs }
  else none

/-- One token. -/
def tokenStep (R : Refs) (lv : Nat) (specs : List (Nat × Stmt)) (l : Outline) : Option Outline := do
  let (t, l1) ← takeTok l
  match lookup (keyOf t 0) l.rows with
  | some i =>
    let r ← rowAt i l.rows
    if r.co then none
    else if r.action = .core .colon then defineStep R lv specs l1
    else if r.action = .core .nest then do
      let d ← defAt i l.defs
      if straight d.prog then runItems (d.prog.items R lv ++ [.word R.exit]) l1 else none
    else primStep i r.action l1
  | none => do
    let v ← numberOf t
    pushVal (.num v) l1

/-- All of the text up to `marker`. -/
def loadText (R : Refs) (lv : Nat) (specs : List (Nat × Stmt)) : Nat → Outline → Option Outline
  | 0, _ => none
  | n + 1, l =>
    if keyOf (readTok l.text).1 0 = keyOf [109, 97, 114, 107, 101, 114] 0 then some l
    else
      match tokenStep R lv specs l with
      | some l' => loadText R lv specs n l'
      | none => none

/-! ### The words there are before -/

def nameCodes (n : String) : List Nat := codesOf (ascii n)

end Verif

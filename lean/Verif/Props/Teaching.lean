import Verif.Lemmas.Conversation
import Verif.Model.Main
import Verif.Lemmas.Demo

/-!
# Words defined and used in a dialogue with the program rtf (C70)
-/

namespace Verif
open Spec Stack

section
variable {cfg : Cfg} {n b k m : Nat} {s s0 a u t : VM} {ix : String → Nat} {text tok pre rest : List Char} {toks more texts : List (List Char)}
  {l l' : List Cell} {o p : List Byte} {out : (Nat → List Byte) → List Byte}

/-- C70. A whole run of the program, in which words are defined and used, from where it has loaded its texts. -/
theorem C70_conversation (hR : RtfLoaded b ix text s) (hm : s.ds.here + m ≤ s.ds.limit) (hC : Teaching cfg.fops m text texts out) (hA : Types cfg s.host.calls texts) :
    ∃ N v tr, (∀ fuel, N ≤ fuel → repl cfg (n + 3) fuel s = .ok ((), v)) ∧ v.stdout = s.stdout ++ out tr ∧ v.outbuf = some [] := by
  have hc : capacity = 64 := rfl
  obtain ⟨wh, hwh, -⟩ := hR.tasks _ (List.mem_of_getElem? (i := 1) rfl)
  have h0 := hR.sits (wh.dfa + 8)
  have hK := hR.kit hm
  have ht : (roused s (ix "(abort)") (wh.dfa + 8)).task = s.task := by simp [roused, VM.task]
  obtain ⟨pre, hpre⟩ := hR.input
  have hrd : Reading (roused s (ix "(abort)") (wh.dfa + 8)).task pre text := by rw [ht]; exact hpre
  -- from the prompt
  have fin : ∀ {l : List Cell} {o p : List Byte} {out : (Nat → List Byte) → List Byte} {u u1 s2 s' : VM} {V : Vocabulary} {m : Nat}, Lessons cfg.fops V m l o texts out →
      Kit b ix text V m s s' → Sits s' ix l o s.host.calls p u → ret u = [] → Like u1 u → PromptAt ix s (pc u1) → execWord cfg (n + 3) (ix "cold") s = .ok ((), s2) →
      Steps cfg (n + 3) s2 u1 → ∃ N v tr, (∀ fuel, N ≤ fuel → repl cfg (n + 3) fuel s = .ok ((), v)) ∧ v.stdout = p ++ out tr ∧ v.outbuf = some [] := by
    intro l o p out u u1 s2 s' V m hD hK h hr hl hp hx hs
    obtain ⟨V', m', s1, t, t1, tr, l', o', k', p', f0, f1, f2, f3, f4, f5, f6⟩ := lessons (n := n) hD hK hA h hr hp hl rfl
    obtain ⟨N, v, v1, v2, v3⟩ := repl_ends hR hx (hs.trans f1) f2 (by rw [f3]; exact hp) (f4.still f0) (by rw [f4.calls]; exact f5)
    have h5 : Sits s1 ix l' o' (k' + 1) p' (heardEnd t) :=
      ⟨f4.refs, f4.cur, f4.ds, f4.wl, f4.handler, f4.data, f4.calm, f4.control, f4.labels, f4.token, f4.output, f4.error, f4.mode, f4.source, f4.input,
        by show t.host.calls + 1 = _; rw [f4.calls], f4.stdout⟩
    have h6 := (h5.like v2).flush
    exact ⟨N, flushed v, tr, v1, by rw [h6.stdout, f6], h6.output⟩
  have told : ∀ {toks more : List (List Char)} {tok : List Char} {V : Vocabulary} {m' : Nat} {l : List Cell} {a a' why : List Byte}
      {out : (Nat → List Byte) → List Byte}, Tokens text (toks ++ tok :: more) → Turns toks [] m [] V m' l a → Upsets cfg.fops V tok l a' (some why) →
      Lessons cfg.fops V m' [] [] texts out → ∃ (N : Nat) (v : VM) (tr : Nat → List Byte), (∀ fuel, N ≤ fuel → repl cfg (n + 3) fuel s = .ok ((), v)) ∧
        v.stdout = s.stdout ++ ((a ++ a') ++ complaint tok why (tr 0) ++ out fun i => tr (i + 1)) ∧ v.outbuf = some [] := by
    intro toks more tok V m' l a a' why out hT hC hB hD
    obtain ⟨s', e, x, c, toks', l2, c1, c0, c2, c3, c4, -⟩ := hC.fails (cfg := cfg) (n := n) hB hK h0 hT hrd
    obtain ⟨z, u, s2, u1, z1, ⟨r, hr, z2⟩, z3, z4, z5, z6⟩ := C69_bad_args (n := n + 2) hR hwh (by omega) c1
      (fun z u _ ⟨r, hr, hu⟩ => c2.ready c0 (by omega) hu) (by omega)
    obtain ⟨hq, rfl⟩ := c4 why rfl
    obtain ⟨-, k2, k3⟩ := c2.tell c3 (by omega) z2 z5
    obtain ⟨tr, k2⟩ := k2 hq
    obtain ⟨N, v, trs, v1, v2, v3⟩ := fin hD c0 k2 k3 (.refl _) z6 z3 z4
    refine ⟨N, v, fun i => match i with | 0 => tr | i + 1 => trs i, v1, ?_, v3⟩
    rw [v2]
    simp only [List.append_assoc, List.nil_append]
  have quiet : ∀ {toks more : List (List Char)} {tok : List Char} {V : Vocabulary} {m' : Nat} {l : List Cell} {a a' : List Byte}
      {out : (Nat → List Byte) → List Byte}, Tokens text (toks ++ tok :: more) → Turns toks [] m [] V m' l a → Upsets cfg.fops V tok l a' none →
      Lessons cfg.fops V m' [] [] texts out → ∃ (N : Nat) (v : VM) (tr : Nat → List Byte), (∀ fuel, N ≤ fuel → repl cfg (n + 3) fuel s = .ok ((), v)) ∧
        v.stdout = s.stdout ++ (lineOf (a ++ a') ++ out tr) ∧ v.outbuf = some [] := by
    intro toks more tok V m' l a a' out hT hC hB hD
    obtain ⟨s', e, x, c, toks', l2, c1, c0, c2, c3, -, c5⟩ := hC.fails (cfg := cfg) (n := n) hB hK h0 hT hrd
    obtain ⟨z, u, s2, u1, z1, ⟨r, hr, z2⟩, z3, z4, z5, z6⟩ := C69_bad_args (n := n + 2) hR hwh (by omega) c1
      (fun z u _ ⟨r, hr, hu⟩ => c2.ready c0 (by omega) hu) (by omega)
    obtain ⟨k1, -, k3⟩ := c2.tell c3 (by omega) z2 z5
    obtain ⟨N, v, trs, v1, v2, v3⟩ := fin hD c0 (k1 (c5 rfl)) k3 (.refl _) z6 z3 z4
    refine ⟨N, v, trs, v1, ?_, v3⟩
    rw [v2]
    simp only [List.append_assoc, List.nil_append]
  cases hC with
  | @ok toks V m' l a _ hT hC hD =>
    obtain ⟨s', t, toks', t1, t0, t2⟩ := hC.works (cfg := cfg) (n := n + 1) hK h0 hT hrd
    have := hC.room'
    obtain ⟨s2, u1, x1, x2, x3, x4⟩ := C69_args (n := n + 2) hR hwh t1 (by rw [t2.data]; omega) (by omega)
    obtain ⟨y1, y2⟩ := t2.afresh
    exact fin (by simpa using hD) t0 y1 y2 x3 x4 x1 x2
  | @error toks more tok V m' l a why out hT hC hU hB hD =>
    obtain ⟨N, v, tr, g⟩ := told hT hC (.inl ⟨hU, hB, rfl⟩) hD
    rw [List.append_nil] at g
    exact ⟨N, v, tr, g⟩
  | @abort toks more tok V m' l a out hT hC hU hB hD =>
    obtain ⟨N, v, tr, g⟩ := quiet hT hC (.inl ⟨hU, hB, rfl⟩) hD
    rw [List.append_nil] at g
    exact ⟨N, v, tr, g⟩
  | errorInside hT hC hB hD => exact told hT hC (.inr hB) hD
  | abortInside hT hC hB hD => exact quiet hT hC (.inr hB) hD

/-- The program runs from the machine that has loaded its texts. -/
theorem program_runs (cfg : Cfg) (depth start cap : Nat) (args : List (List Char)) (hpos : 0 < start) (halign : start % 16 = 0)
    (hroom : 12288 ≤ cap) (hsmall : start + cap < 2 ^ 63) (hargs : byteLen (argsText args) < 2 ^ 62)
    (hC : ∀ (ix : String → Nat) (u : VM), RtfLoaded start ix (argsText args) u → u.ds.here + (cap - 12288) ≤ u.ds.limit → u.host.calls = 0 →
      ∃ N v tr, (∀ fuel, N ≤ fuel → repl cfg (depth + 3) fuel u = .ok ((), v)) ∧ v.stdout = u.stdout ++ out tr ∧ v.outbuf = some []) :
    ∃ N v tr, (∀ fuel, N ≤ fuel → rtfMain cfg (depth + 3) fuel start cap args = .ok v) ∧
      v.stdout = (if args.isEmpty then greeting else []) ++ out tr ∧ v.outbuf = some [] := by
  obtain ⟨s, N1, ix, h1, hst, hcp, hR, h2, h3, line, h4, h5⟩ := C68_start cfg (depth + 1) start cap hpos halign hroom hsmall
  have hin : s.task.st.sourceId = 0 := hR.terminal
  let u : VM := { s.setTask { s.task with inbuf := some (line ++ argsText args) } with stdout := if args.isEmpty then greeting else [] }
  have hR' : RtfLoaded start ix ([] ++ argsText args) u := hR.extended h4 (by rw [byteLen_append]; omega) rfl
  have hm : u.ds.here + (cap - 12288) ≤ u.ds.limit := by
    have h1 : u.ds.here ≤ start + 12288 := hR.workshop.upper
    have h2 : u.ds.limit = start + cap := by show s.ds.start + s.ds.cap = _; rw [hst, hcp]
    omega
  obtain ⟨N2, v, tr, g1, g2, g3⟩ := hC ix u hR' hm h3
  refine ⟨max N1 N2, v, tr, fun fuel hf => ?_, g2, g3⟩
  rw [rtfMain, h1 fuel (by omega)]
  dsimp only
  cases args with
  | nil =>
    have e : (modVM fun s => { s with stdout := s.stdout ++ greeting }) s = .ok ((), u) := by
      have e1 : s.setTask { s.task with inbuf := some (line ++ argsText []) } = s := by
        rw [show line ++ argsText [] = line by simp [argsText], ← h4]
        simp only [VM.setTask, VM.task]
        congr 1
        funext j
        split
        · rename_i hj; rw [hj]
        · rfl
      rw [modVM_apply, h2, List.nil_append]
      simp only [u, e1]
      rfl
    simp only [List.isEmpty_nil, if_true]
    rw [M.bind_ok e, g1 fuel (by omega)]
  | cons a as =>
    have e : addArgs (a :: as) s = .ok ((), u) := by
      rw [addArgs_run _ hin h4]
      simp only [u, List.isEmpty_cons, Bool.false_eq_true, if_false, ← h2]
      rfl
    simp only [List.isEmpty_cons, Bool.false_eq_true, if_false]
    rw [M.bind_ok e, g1 fuel (by omega)]

/-- C70. A whole run of the program, in which words are defined and used, wherever its memory is. The arguments are evaluated
first. -/
theorem C70_program (cfg : Cfg) (depth start cap : Nat) (args : List (List Char)) (hpos : 0 < start) (halign : start % 16 = 0)
    (hroom : 12288 ≤ cap) (hsmall : start + cap < 2 ^ 63) (hargs : byteLen (argsText args) < 2 ^ 62)
    (hC : Teaching cfg.fops (cap - 12288) (argsText args) texts out) (hA : Types cfg 0 texts) :
    ∃ N v tr, (∀ fuel, N ≤ fuel → rtfMain cfg (depth + 3) fuel start cap args = .ok v) ∧
      v.stdout = (if args.isEmpty then greeting else []) ++ out tr ∧ v.outbuf = some [] :=
  program_runs cfg depth start cap args hpos halign hroom hsmall hargs fun _ _ h1 h2 h3 =>
    C70_conversation h1 h2 hC (by rw [h3]; exact hA)

end

theorem demo_number {tok : List Char} {v : Cell} {l : List Cell}
    (h1 : (rtfWords.all fun n => (utf8 tok).map lowerByte != (ascii n).map lowerByte) = true) (h2 : integerValue 10 (utf8 tok) = some v) :
    Calculates tok l (v :: l) [] := by
  refine .integer (fun n hn he => ?_) ((integerValue_iff 10 _ v).1 h2)
  have := List.all_eq_true.1 h1 n hn
  rw [(sameName_iff _ _).1 he] at this
  simp at this

theorem demo_word {tok : List Char} (name : String) {l l' : List Cell} (h1 : Called tok name)
    (h2 : (effects.find? fun e => e.1 = name).bind (fun e => e.2 l) = some l') : Calculates tok l l' [] := by
  cases hf : effects.find? fun e => e.1 = name with
  | none => rw [hf] at h2; cases h2
  | some e =>
    have h3 := List.find?_some hf
    have h4 := List.mem_of_find?_eq_some hf
    rw [hf] at h2
    obtain rfl : e.1 = name := by simpa using h3
    exact .word h4 h1 h2

theorem demo_free {tok : List Char} (h1 : (rtfWords.all fun n => (utf8 tok).map lowerByte != (ascii n).map lowerByte) = true) : NoWord tok := by
  intro n hn he
  have := List.all_eq_true.1 h1 n hn
  rw [(sameName_iff _ _).1 he] at this
  simp at this

theorem demo_same {x y : List Byte} (h : x.map lowerByte = y.map lowerByte) : SameName x y := (sameName_iff _ _).2 h

theorem demo_unused {V : Vocabulary} {tok : List Char} (h : (V.all fun e => (utf8 tok).map lowerByte != (utf8 e.1).map lowerByte) = true) : Unused V tok := by
  intro e he hs
  have := List.all_eq_true.1 h e he
  rw [(sameName_iff _ _).1 hs] at this
  simp at this

theorem grammar_rtf : ∀ n, n ∈ grammar → n ∈ rtfWords := by decide +kernel

/-- Definition of a word of which no other has the name. -/
theorem demo_define {x y name name' : List Char} {body toks : List (List Char)} {p : Recipe} {V V' : Vocabulary} {m m' : Nat} {l l' : List Cell}
    {a : List Byte} (h1 : l.length + 4 ≤ capacity) (h2 : Called x ":") (h3 : name' = name.map lowerChar) (h4 : NoWord name') (h5 : Unused V name')
    (h6 : Spelt p body) (h7 : p.Known V false) (h8 : p.height ≤ 64) (h9 : Called y ";") (h10 : cost name' body ≤ m)
    (h : Turns toks ((name', p) :: V) (m - cost name' body) l V' m' l' a) : Turns (x :: name :: (body ++ y :: toks)) V m l V' m' l' a :=
  .define (r := []) h1 h2 h3 (fun n hn => h4 n (grammar_rtf n hn)) (.new h4 h5) h6 h7 h8 h9 h10 h

/-- The user types these lines and then ends the input. -/
def lessonLines : List (List Char) := [": SQ dup * ;".toList, "3 sq .".toList, ": down begin dup . 1 - dup 0= until drop ; 2 Down".toList, "down2".toList,
  ": part 7 . / ;".toList, "5 0 part 3".toList]

def lessonCfg : Cfg := { demoCfg with answers := fun k => match lessonLines[k]? with | some t => .line t | none => .eof }

/-- What the program prints. -/
def lessonPrinted (traces : Nat → List Byte) : List Byte :=
  ascii "  ok" ++ [13, 10] ++ (ascii " 9  ok" ++ [13, 10]) ++ (ascii " 2 1  ok" ++ [13, 10]) ++
  (ascii " down2 Undefined word, backtrace: " ++ traces 3 ++ [13, 10]) ++ (ascii "  ok" ++ [13, 10]) ++
  (ascii " 7 part Division by zero, backtrace: " ++ traces 5 ++ [13, 10])

def partRecipe : Recipe := .seq (.token "7".toList) (.seq (.token ".".toList) (.token "/".toList))

def sqRecipe : Recipe := .seq (.token "dup".toList) (.token "*".toList)

def downRecipe : Recipe := .seq (.untilLoop (.seq (.token "dup".toList) (.seq (.token ".".toList) (.seq (.token "1".toList) (.seq (.token "-".toList)
  (.seq (.token "dup".toList) (.token "0=".toList))))))) (.token "drop".toList)

theorem lesson_dialogue : ∃ out, Teaching lessonCfg.fops 1000 (argsText []) lessonLines out ∧ ∀ tr, out tr = lessonPrinted tr := by
  have same : ∀ {x y : List Byte}, x.map lowerByte = y.map lowerByte → SameName x y := fun h => (sameName_iff _ _).2 h
  have apart : ∀ {x y : List Byte}, x.map lowerByte ≠ y.map lowerByte → ¬SameName x y := fun h k => h ((sameName_iff _ _).1 k)
  have V1 : ∀ tok : List Char, (utf8 tok).map lowerByte ≠ (utf8 "sq".toList).map lowerByte → Unused [("sq".toList, sqRecipe)] tok := by
    intro tok h e he
    obtain rfl := List.mem_singleton.1 he
    exact apart h
  have bw : ∀ {V : Vocabulary} {g : Option Recipe} {d : Nat} {c : List (Cell × Cell)} {tok : List Char} (name : String) {l l' : List Cell}, Unused V tok → l.length + 4 ≤ capacity →
      l'.length + 4 ≤ capacity → Called tok name → (effects.find? fun e => e.1 = name).bind (fun e => e.2 l) = some l' →
      Runs ⟨V, g, d⟩ c (.body (.token tok)) l .normal l' [] := fun name _ _ h1 h2 h3 h4 h5 => .basic h1 h2 h3 (demo_word name h4 h5)
  have bd : ∀ {V : Vocabulary} {g : Option Recipe} {d : Nat} {c : List (Cell × Cell)} {v : Cell} {l : List Cell}, Unused V ".".toList → (v :: l).length + 4 ≤ capacity → l.length + 4 ≤ capacity →
      Runs ⟨V, g, d⟩ c (.body (.token ".".toList)) (v :: l) .normal l (ascii (toString v.toInt) ++ [32]) := fun h1 h2 h3 => .basic h1 h2 h3 (.dot (same (by decide)))
  have ln : ∀ {V : Vocabulary} {g : Option Recipe} {d : Nat} {c : List (Cell × Cell)} {tok : List Char} {v : Cell} {l : List Cell}, Unused V tok → l.length + 4 ≤ capacity → (v :: l).length + 4 ≤ capacity →
      (rtfWords.all fun n => (utf8 tok).map lowerByte != (ascii n).map lowerByte) = true → integerValue 10 (utf8 tok) = some v →
      Runs ⟨V, g, d⟩ c (.body (.token tok)) l .normal (v :: l) [] := fun h1 h2 h3 h4 h5 => .basic h1 h2 h3 (demo_number h4 h5)
  have kw : ∀ {V : Vocabulary} {tok : List Char} (name : String), name ∈ effects.map (fun e => e.1) → Called tok name →
      (V.all fun e => (utf8 tok).map lowerByte != (utf8 e.1).map lowerByte) = true → Known V tok := fun name h1 h2 h3 =>
    .word (calcWords_prim (List.mem_append_left _ h1)) h2 (demo_unused h3)
  -- the first line
  have t1 : Turns [":".toList, "SQ".toList, "dup".toList, "*".toList, ";".toList] [] 1000 [] [("sq".toList, sqRecipe)] 943 [] [] := by
    refine demo_define (name := "SQ".toList) (name' := "sq".toList) (body := ["dup".toList, "*".toList]) (toks := []) (p := sqRecipe) (by decide) (same (by decide)) (by decide)
      (demo_free (by decide +kernel)) nofun (.seq .token .token) ⟨kw "dup" (by decide) (same (by decide)) (by decide), kw "*" (by decide) (same (by decide)) (by decide)⟩ (by decide) (same (by decide)) (by decide) ?_
    exact .nil (by decide)
  have a1 : Replies lessonCfg.fops ": SQ dup * ;".toList [] 1000 [] [("sq".toList, sqRecipe)] 943 [] fun _ => ascii " " ++ [] ++ ascii " ok" ++ [13, 10] := by
    refine .ok ?_ t1
    exact .word (bs := []) (t := [':']) (by simp) (by simp) (by decide) (by decide)
      (.word (bs := [' ']) (t := ['S', 'Q']) (by decide) (by simp) (by decide) (by decide)
      (.word (bs := [' ']) (t := ['d', 'u', 'p']) (by decide) (by simp) (by decide) (by decide)
      (.word (bs := [' ']) (t := ['*']) (by decide) (by simp) (by decide) (by decide)
      (.word (bs := [' ']) (t := [';']) (rest := []) (by decide) (by simp) (by decide) (by decide) (.blank (by simp))))))
  -- the second line
  have sq : Runs ⟨[], some sqRecipe, 49⟩ [] (.body sqRecipe) [3] .normal [9] ([] ++ []) :=
    .seq (l1 := [3, 3]) (bw "dup" nofun (by decide) (by decide) (same (by decide)) (by decide)) (bw "*" nofun (by decide) (by decide) (same (by decide)) (by decide))
  have a2 : Replies lessonCfg.fops "3 sq .".toList [("sq".toList, sqRecipe)] 943 [] [("sq".toList, sqRecipe)] 943 []
      fun _ => ascii " " ++ ([] ++ ([] ++ (ascii (toString (9 : Cell).toInt) ++ [32] ++ []))) ++ ascii " ok" ++ [13, 10] := by
    refine .ok (toks := ["3".toList, "sq".toList, ".".toList]) ?_ ?_
    · exact .word (bs := []) (t := ['3']) (by simp) (by simp) (by decide) (by decide)
        (.word (bs := [' ']) (t := ['s', 'q']) (by decide) (by simp) (by decide) (by decide)
        (.word (bs := [' ']) (t := ['.']) (rest := []) (by decide) (by simp) (by decide) (by decide) (.blank (by simp))))
    · exact .run (ln (v := 3) (V1 _ (by decide)) (by decide) (by decide) (by decide +kernel) (by decide))
        (.run (.call (newer := []) (older := []) nofun (same (by decide)) (by decide) (by decide) sq (.inl rfl))
        (.run (bd (V1 _ (by decide)) (by decide) (by decide)) (.nil (by decide))))
  -- the third line
  have lap : ∀ (v w f : Cell), wrap (v.toInt - 1) = w → truth (w.toInt = 0) = f →
      Runs ⟨[("sq".toList, sqRecipe)], some downRecipe, 49⟩ [] (.body (.seq (.token "dup".toList) (.seq (.token ".".toList) (.seq (.token "1".toList) (.seq (.token "-".toList)
        (.seq (.token "dup".toList) (.token "0=".toList))))))) [v] .normal [f, w] ([] ++ (ascii (toString v.toInt) ++ [32] ++ ([] ++ ([] ++ ([] ++ []))))) := by
    intro v w f h1 h2
    subst h1 h2
    exact .seq (l1 := [v, v]) (bw "dup" (V1 _ (by decide)) (by simp [capacity]) (by simp [capacity]) (same (by decide)) rfl)
      (.seq (bd (V1 _ (by decide)) (by simp [capacity]) (by simp [capacity]))
      (.seq (ln (v := 1) (V1 _ (by decide)) (by simp [capacity]) (by simp [capacity]) (by decide +kernel) (by decide))
      (.seq (l1 := [wrap (v.toInt - 1)]) (bw "-" (V1 _ (by decide)) (by simp [capacity]) (by simp [capacity]) (same (by decide)) rfl)
      (.seq (l1 := [wrap (v.toInt - 1), wrap (v.toInt - 1)]) (bw "dup" (V1 _ (by decide)) (by simp [capacity]) (by simp [capacity]) (same (by decide)) rfl)
      (bw "0=" (V1 _ (by decide)) (by simp [capacity]) (by simp [capacity]) (same (by decide)) rfl)))))
  obtain ⟨D, down, hD⟩ : ∃ D, Runs ⟨[("sq".toList, sqRecipe)], some downRecipe, 49⟩ [] (.body downRecipe) [2] .normal [] D ∧ D = ascii "2 1 " :=
    ⟨_, .seq (.untilNext (lap 2 1 0 (by decide) (by decide)) (.untilEnd (lap 1 0 (-1) (by decide) (by decide)) (by decide)))
      (bw "drop" (V1 "drop".toList (by decide)) (by decide) (by decide) (same (by decide)) rfl), by decide⟩
  have V2 : ∀ tok : List Char, (utf8 tok).map lowerByte ≠ (utf8 "sq".toList).map lowerByte → (utf8 tok).map lowerByte ≠ (utf8 "down".toList).map lowerByte →
      Unused [("down".toList, downRecipe), ("sq".toList, sqRecipe)] tok := by
    intro tok h1 h2 e he
    rcases List.mem_cons.1 he with rfl | he
    · exact apart h2
    · exact V1 tok h1 e he
  have k3 : downRecipe.Known [("sq".toList, sqRecipe)] false :=
    ⟨⟨kw "dup" (by decide) (same (by decide)) (by decide), .word (name := ".") (by simp [calcWords]) (same (by decide)) (demo_unused (by decide)),
      .integer (v := 1) (demo_free (by decide +kernel)) (V1 _ (by decide)) ((integerValue_iff 10 _ _).1 (by decide)), kw "-" (by decide) (same (by decide)) (by decide),
      kw "dup" (by decide) (same (by decide)) (by decide), kw "0=" (by decide) (same (by decide)) (by decide)⟩, kw "drop" (by decide) (same (by decide)) (by decide)⟩
  have a3 : Replies lessonCfg.fops ": down begin dup . 1 - dup 0= until drop ; 2 Down".toList [("sq".toList, sqRecipe)] 943 []
      [("down".toList, downRecipe), ("sq".toList, sqRecipe)] 772 [] fun _ => ascii " " ++ ([] ++ (D ++ [])) ++ ascii " ok" ++ [13, 10] := by
    refine .ok (toks := [":".toList, "down".toList, "begin".toList, "dup".toList, ".".toList, "1".toList, "-".toList, "dup".toList, "0=".toList, "until".toList,
      "drop".toList, ";".toList, "2".toList, "Down".toList]) ?_ ?_
    · exact .word (bs := []) (t := [':']) (by simp) (by simp) (by decide) (by decide)
        (.word (bs := [' ']) (t := "down".toList) (by decide) (by simp) (by decide) (by decide)
        (.word (bs := [' ']) (t := "begin".toList) (by decide) (by simp) (by decide) (by decide)
        (.word (bs := [' ']) (t := "dup".toList) (by decide) (by simp) (by decide) (by decide)
        (.word (bs := [' ']) (t := ".".toList) (by decide) (by simp) (by decide) (by decide)
        (.word (bs := [' ']) (t := "1".toList) (by decide) (by simp) (by decide) (by decide)
        (.word (bs := [' ']) (t := "-".toList) (by decide) (by simp) (by decide) (by decide)
        (.word (bs := [' ']) (t := "dup".toList) (by decide) (by simp) (by decide) (by decide)
        (.word (bs := [' ']) (t := "0=".toList) (by decide) (by simp) (by decide) (by decide)
        (.word (bs := [' ']) (t := "until".toList) (by decide) (by simp) (by decide) (by decide)
        (.word (bs := [' ']) (t := "drop".toList) (by decide) (by simp) (by decide) (by decide)
        (.word (bs := [' ']) (t := ";".toList) (by decide) (by simp) (by decide) (by decide)
        (.word (bs := [' ']) (t := "2".toList) (by decide) (by simp) (by decide) (by decide)
        (.word (bs := [' ']) (t := "Down".toList) (rest := []) (by decide) (by simp) (by decide) (by decide) (.blank (by simp)))))))))))))))
    · refine demo_define (name := "down".toList) (name' := "down".toList) (toks := ["2".toList, "Down".toList]) (p := downRecipe)
        (body := ["begin".toList, "dup".toList, ".".toList, "1".toList, "-".toList, "dup".toList, "0=".toList, "until".toList, "drop".toList]) (by decide)
        (same (by decide)) (by decide) (demo_free (by decide +kernel)) (V1 _ (by decide)) ?_ k3 (by decide) (same (by decide)) (by decide) ?_
      · exact .seq (a := ["begin".toList, "dup".toList, ".".toList, "1".toList, "-".toList, "dup".toList, "0=".toList, "until".toList])
          (.untilLoop (a := ["dup".toList, ".".toList, "1".toList, "-".toList, "dup".toList, "0=".toList]) (same (by decide))
            (.seq .token (.seq .token (.seq .token (.seq .token (.seq .token .token))))) (same (by decide))) .token
      · exact .run (ln (v := 2) (V2 _ (by decide) (by decide)) (by decide) (by decide) (by decide +kernel) (by decide))
          (.run (.call (newer := []) (older := [("sq".toList, sqRecipe)]) nofun (same (by decide)) (by decide) (by decide) down (.inl rfl)) (.nil (by decide)))
  -- the last line
  have a4 : Replies lessonCfg.fops "down2".toList [("down".toList, downRecipe), ("sq".toList, sqRecipe)] 772 []
      [("down".toList, downRecipe), ("sq".toList, sqRecipe)] 772 [] fun trace => ascii " " ++ [] ++ complaint "down2".toList (ascii "Undefined word") trace := by
    refine .error (toks := []) (more := []) ?_ (.nil (by decide)) (V2 _ (by decide) (by decide)) (.unknown (demo_free (by decide +kernel)) ?_ ?_)
    · exact .word (bs := []) (t := "down2".toList) (rest := []) (by simp) (by simp) (by decide) (by decide) (.blank (by simp))
    · intro v hv
      have := (integerValue_iff 10 _ v).2 hv
      rw [show integerValue 10 (utf8 "down2".toList) = none by decide] at this; cases this
    · intro v hv
      have := (floatValue_iff _ _ v).2 hv
      have e : (floatValue lessonCfg.fops (utf8 "down2".toList)).toOption = none := by decide
      rw [this] at e; cases e
  have a5 : Replies lessonCfg.fops ": part 7 . / ;".toList [("down".toList, downRecipe), ("sq".toList, sqRecipe)] 772 []
      [("part".toList, partRecipe), ("down".toList, downRecipe), ("sq".toList, sqRecipe)] 697 [] fun _ => ascii " " ++ [] ++ ascii " ok" ++ [13, 10] := by
    refine .ok (toks := [":".toList, "part".toList, "7".toList, ".".toList, "/".toList, ";".toList]) ?_ ?_
    · exact .word (bs := []) (t := [':']) (by simp) (by simp) (by decide) (by decide)
        (.word (bs := [' ']) (t := "part".toList) (by decide) (by simp) (by decide) (by decide)
        (.word (bs := [' ']) (t := "7".toList) (by decide) (by simp) (by decide) (by decide)
        (.word (bs := [' ']) (t := ".".toList) (by decide) (by simp) (by decide) (by decide)
        (.word (bs := [' ']) (t := "/".toList) (by decide) (by simp) (by decide) (by decide)
        (.word (bs := [' ']) (t := ";".toList) (rest := []) (by decide) (by simp) (by decide) (by decide) (.blank (by simp)))))))
    · refine demo_define (name := "part".toList) (name' := "part".toList) (body := ["7".toList, ".".toList, "/".toList]) (toks := []) (p := partRecipe) (by decide)
        (same (by decide)) (by decide) (demo_free (by decide +kernel)) (V2 _ (by decide) (by decide)) (.seq .token (.seq .token .token)) ?_ (by decide)
        (same (by decide)) (by decide) (.nil (by decide))
      exact ⟨.integer (v := 7) (demo_free (by decide +kernel)) (V2 _ (by decide) (by decide)) ((integerValue_iff 10 _ _).1 (by decide)),
        .word (name := ".") (by simp [calcWords]) (same (by decide)) (demo_unused (by decide)), .word (name := "/") (by simp [calcWords]) (same (by decide)) (demo_unused (by decide))⟩
  have V3 : ∀ tok : List Char, (utf8 tok).map lowerByte ≠ (utf8 "sq".toList).map lowerByte → (utf8 tok).map lowerByte ≠ (utf8 "down".toList).map lowerByte →
      (utf8 tok).map lowerByte ≠ (utf8 "part".toList).map lowerByte →
      Unused [("part".toList, partRecipe), ("down".toList, downRecipe), ("sq".toList, sqRecipe)] tok := by
    intro tok h1 h2 h3 e he
    rcases List.mem_cons.1 he with rfl | he
    · exact apart h3
    · exact V2 tok h1 h2 e he
  have part : Stumbles ⟨[("down".toList, downRecipe), ("sq".toList, sqRecipe)], some partRecipe, 49⟩ [] (.body partRecipe) [0, 5] ([] ++ (ascii (toString (7 : Cell).toInt) ++ [32] ++ []))
      (some (ascii "Division by zero")) :=
    .second (ln (v := 7) (V2 _ (by decide) (by decide)) (by decide) (by decide) (by decide +kernel) (by decide))
      (.second (bd (V2 _ (by decide) (by decide)) (by decide) (by decide))
      (.basic (V2 _ (by decide) (by decide)) (by decide) (.divide (name := "/") (f := Int.tdiv) (by simp [divisions]) (same (by decide)) rfl)))
  have a6 : Replies lessonCfg.fops "5 0 part 3".toList [("part".toList, partRecipe), ("down".toList, downRecipe), ("sq".toList, sqRecipe)] 697 []
      [("part".toList, partRecipe), ("down".toList, downRecipe), ("sq".toList, sqRecipe)] 697 []
      fun trace => ascii " " ++ ([] ++ ([] ++ []) ++ ([] ++ (ascii (toString (7 : Cell).toInt) ++ [32] ++ []))) ++ complaint "part".toList (ascii "Division by zero") trace := by
    refine .errorInside (toks := ["5".toList, "0".toList]) (more := ["3".toList]) ?_ ?_
      (.call (newer := []) (older := [("down".toList, downRecipe), ("sq".toList, sqRecipe)]) nofun (same (by decide)) (by decide) part)
    · exact .word (bs := []) (t := ['5']) (by simp) (by simp) (by decide) (by decide)
        (.word (bs := [' ']) (t := ['0']) (by decide) (by simp) (by decide) (by decide)
        (.word (bs := [' ']) (t := "part".toList) (by decide) (by simp) (by decide) (by decide)
        (.word (bs := [' ']) (t := ['3']) (rest := []) (by decide) (by simp) (by decide) (by decide) (.blank (by simp)))))
    · exact .run (ln (v := 5) (V3 _ (by decide) (by decide) (by decide)) (by decide) (by decide) (by decide +kernel) (by decide))
        (.run (ln (v := 0) (V3 _ (by decide) (by decide) (by decide)) (by decide) (by decide) (by decide +kernel) (by decide)) (.nil (by decide)))
  refine ⟨_, .ok (toks := []) (.blank (by simp [argsText])) (.nil (by decide))
    (.line (by decide) a1 (.line (by decide) a2 (.line (by decide) a3 (.line (by decide) a4 (.line (by decide) a5 (.line (by decide) a6 .done)))))), fun tr => ?_⟩
  simp only [complaint, lineOf, if_true, lessonPrinted]
  have e1 : ascii (toString (9 : Cell).toInt) = ascii "9" := by decide
  have e4 : ascii " down2 Undefined word, backtrace: " = ascii " " ++ (utf8 "down2".toList ++ ascii " " ++ ascii "Undefined word" ++ ascii ", backtrace: ") := by decide
  rw [e1, e4, hD]
  have e5 : ascii " 9  ok" = ascii " " ++ (ascii "9" ++ [32]) ++ ascii " ok" := by decide
  have e6 : ascii " 2 1  ok" = ascii " " ++ ascii "2 1 " ++ ascii " ok" := by decide
  have e7 : ascii "  ok" = ascii " " ++ ascii " ok" := by decide
  have e8 : ascii (toString (7 : Cell).toInt) = ascii "7" := by decide
  have e9 : ascii " 7 part Division by zero, backtrace: " = ascii " " ++ (ascii "7" ++ [32] ++ (utf8 "part".toList ++ ascii " " ++ ascii "Division by zero" ++ ascii ", backtrace: ")) := by decide
  rw [e5, e6, e7, e8, e9]
  simp only [List.append_assoc, List.nil_append, List.append_nil]

/-- Non-vacuity of C70_program and C70_conversation: six lines; the first, the third and the fifth define words, which are then used, the
fourth is an error, and on the last line there is an error in a word that was defined. -/
example : ∃ N v tr, (∀ fuel, N ≤ fuel → rtfMain lessonCfg 3 fuel 4096 13288 [] = .ok v) ∧ v.stdout = greeting ++ lessonPrinted tr := by
  obtain ⟨out, h1, h2⟩ := lesson_dialogue
  obtain ⟨N, v, tr, g1, g2, -⟩ := C70_program lessonCfg 0 4096 13288 [] (by decide) (by decide) (by decide) (by decide) (by decide) h1
    ⟨fun i t hi => by show (match lessonLines[0 + i]? with | some t => Answer.line t | none => .eof) = _; rw [Nat.zero_add, hi], rfl⟩
  exact ⟨N, v, tr, g1, by rw [g2, h2]; rfl⟩

/-- The user types these lines and then ends the input. -/
def loopLines : List (List Char) := [": sum 0 swap 1 do i + dup 4 > if leave then loop ; 9 sum .".toList,
  ": fac dup if dup 1 - recurse * else drop 1 then ; 2 fac .".toList, ": seek 5 0 do i . i 1 = if unloop exit then loop ; seek".toList,
  ": tick begin dup . 1 - dup 0= if exit then again ; 2 tick drop".toList]

def loopCfg : Cfg := { demoCfg with answers := fun k => match loopLines[k]? with | some t => .line t | none => .eof }

/-- What the program prints. -/
def loopPrinted : List Byte := ascii " 6  ok" ++ [13, 10] ++ (ascii " 2  ok" ++ [13, 10]) ++ (ascii " 0 1  ok" ++ [13, 10]) ++
  (ascii " 2 1  ok" ++ [13, 10])

def sumBody : Recipe := .seq .index (.seq (.token "+".toList) (.seq (.token "dup".toList) (.seq (.token "4".toList) (.seq (.token ">".toList) (.ifThen .leave)))))

def sumRecipe : Recipe := .seq (.token "0".toList) (.seq (.token "swap".toList) (.seq (.token "1".toList) (.counted false false sumBody)))

def facRecipe : Recipe := .seq (.token "dup".toList) (.ifElse (.seq (.token "dup".toList) (.seq (.token "1".toList) (.seq (.token "-".toList) (.seq .recurse
  (.token "*".toList))))) (.seq (.token "drop".toList) (.token "1".toList)))

def seekBody : Recipe := .seq .index (.seq (.token ".".toList) (.seq .index (.seq (.token "1".toList) (.seq (.token "=".toList) (.ifThen (.exit 1))))))

def seekRecipe : Recipe := .seq (.token "5".toList) (.seq (.token "0".toList) (.counted false false seekBody))

def tickBody : Recipe := .seq (.token "dup".toList) (.seq (.token ".".toList) (.seq (.token "1".toList) (.seq (.token "-".toList) (.seq (.token "dup".toList)
  (.seq (.token "0=".toList) (.ifThen (.exit 0)))))))

theorem loop_tokens : (rtfWords.all fun n => ["0", "1", "2", "4", "5", "9", "sum", "fac", "seek", "tick"].all fun t =>
    (utf8 t.toList).map lowerByte != (ascii n).map lowerByte) = true := by decide +kernel

theorem loop_free {t : String} (ht : t ∈ ["0", "1", "2", "4", "5", "9", "sum", "fac", "seek", "tick"]) :
    (rtfWords.all fun n => (utf8 t.toList).map lowerByte != (ascii n).map lowerByte) = true :=
  List.all_eq_true.2 fun n hn => List.all_eq_true.1 (List.all_eq_true.1 loop_tokens n hn) _ ht

section
variable {V : Vocabulary} {g : Option Recipe} {d : Nat} {c : List (Cell × Cell)} {tok : List Char}

theorem demo_runs_word (name : String) {l l' : List Cell} (h1 : (V.all fun e => (utf8 tok).map lowerByte != (utf8 e.1).map lowerByte) = true)
    (h2 : l.length + 4 ≤ capacity) (h3 : l'.length + 4 ≤ capacity) (h4 : Called tok name)
    (h5 : (effects.find? fun e => e.1 = name).bind (fun e => e.2 l) = some l') : Runs ⟨V, g, d⟩ c (.body (.token tok)) l .normal l' [] :=
  .basic (demo_unused h1) h2 h3 (demo_word name h4 h5)

theorem demo_runs_dot {v : Cell} {l : List Cell} (h1 : (V.all fun e => (utf8 ".".toList).map lowerByte != (utf8 e.1).map lowerByte) = true)
    (h2 : (v :: l).length + 4 ≤ capacity) (h3 : l.length + 4 ≤ capacity) :
    Runs ⟨V, g, d⟩ c (.body (.token ".".toList)) (v :: l) .normal l (ascii (toString v.toInt) ++ [32]) :=
  .basic (demo_unused h1) h2 h3 (.dot (demo_same (by decide)))

theorem demo_runs_number (v : Cell) {l : List Cell} (h1 : (V.all fun e => (utf8 tok).map lowerByte != (utf8 e.1).map lowerByte) = true)
    (h2 : l.length + 4 ≤ capacity) (h3 : (v :: l).length + 4 ≤ capacity)
    (h4 : (rtfWords.all fun n => (utf8 tok).map lowerByte != (ascii n).map lowerByte) = true) (h5 : integerValue 10 (utf8 tok) = some v) :
    Runs ⟨V, g, d⟩ c (.body (.token tok)) l .normal (v :: l) [] := .basic (demo_unused h1) h2 h3 (demo_number h4 h5)

theorem demo_known_word (name : String) (h1 : name ∈ effects.map fun e => e.1) (h2 : Called tok name)
    (h3 : (V.all fun e => (utf8 tok).map lowerByte != (utf8 e.1).map lowerByte) = true) : Known V tok :=
  .word (calcWords_prim (List.mem_append_left _ h1)) h2 (demo_unused h3)

theorem demo_known_number (v : Cell) (h1 : (rtfWords.all fun n => (utf8 tok).map lowerByte != (ascii n).map lowerByte) = true)
    (h2 : (V.all fun e => (utf8 tok).map lowerByte != (utf8 e.1).map lowerByte) = true) (h3 : integerValue 10 (utf8 tok) = some v) : Known V tok :=
  .integer (demo_free h1) (demo_unused h2) ((integerValue_iff 10 _ v).1 h3)
end

def loopV1 : Vocabulary := [("sum".toList, sumRecipe)]
def loopV2 : Vocabulary := ("fac".toList, facRecipe) :: loopV1
def loopV3 : Vocabulary := ("seek".toList, seekRecipe) :: loopV2
def loopV4 : Vocabulary := ("tick".toList, .againLoop tickBody) :: loopV3

theorem loop_line1 : Replies loopCfg.fops ": sum 0 swap 1 do i + dup 4 > if leave then loop ; 9 sum .".toList [] 1000 [] loopV1 766 []
      fun _ => ascii " " ++ ([] ++ ([] ++ (ascii (toString (6 : Cell).toInt) ++ [32] ++ []))) ++ ascii " ok" ++ [13, 10] := by
  have turn1 : ∀ (acc idx : Cell), ∃ f, f = truth ((wrap (acc.toInt + idx.toInt)).toInt > 4) ∧
      ∀ e, Runs ⟨[], some sumRecipe, 46⟩ [(9, idx)] (.body (.ifThen .leave)) [f, wrap (acc.toInt + idx.toInt)] e [wrap (acc.toInt + idx.toInt)] [] →
      Runs ⟨[], some sumRecipe, 46⟩ [(9, idx)] (.body sumBody) [acc] e [wrap (acc.toInt + idx.toInt)] [] := by
    intro acc idx
    refine ⟨_, rfl, fun e h => ?_⟩
    exact .seq (a := []) (b := []) (.index (by simp [capacity]))
      (.seq (a := []) (b := []) (demo_runs_word "+" (by decide) (by simp [capacity]) (by simp [capacity]) (demo_same (by decide)) rfl)
      (.seq (a := []) (b := []) (demo_runs_word "dup" (by decide) (by simp [capacity]) (by simp [capacity]) (demo_same (by decide)) rfl)
      (.seq (a := []) (b := []) (demo_runs_number 4 (by decide) (by simp [capacity]) (by simp [capacity]) (loop_free (by simp)) (by decide))
      (.seq (a := []) (b := []) (demo_runs_word ">" (by decide) (by simp [capacity]) (by simp [capacity]) (demo_same (by decide)) rfl) h))))
  have sum : Runs ⟨[], some sumRecipe, 49⟩ [] (.body sumRecipe) [9] .normal [6] [] := by
    obtain ⟨f1, g1, h1⟩ := turn1 0 1
    obtain ⟨f2, g2, h2⟩ := turn1 1 2
    obtain ⟨f3, g3, h3⟩ := turn1 3 3
    have e1 : f1 = 0 := g1.trans (by decide)
    have e2 : f2 = 0 := g2.trans (by decide)
    have e3 : f3 = -1 := g3.trans (by decide)
    subst e1 e2 e3
    exact .seq (a := []) (b := []) (demo_runs_number 0 (by decide) (by simp [capacity]) (by simp [capacity]) (loop_free (by simp)) (by decide)) (.seq (a := []) (b := []) (demo_runs_word "swap" (by decide) (by simp [capacity]) (by simp [capacity]) (demo_same (by decide)) rfl) (.seq (a := []) (b := []) (demo_runs_number 1 (by decide) (by simp [capacity]) (by simp [capacity]) (loop_free (by simp)) (by decide))
      (.loop (d := 46) nofun (.loopNext (a := []) (b := []) (h1 _ .ifFalse) (by decide) (.loopNext (a := []) (b := []) (h2 _ .ifFalse) (by decide) (.loopLeave (h3 _ (.ifTrue (by decide) .leave))))))))
  refine .ok (toks := [":".toList, "sum".toList, "0".toList, "swap".toList, "1".toList, "do".toList, "i".toList, "+".toList, "dup".toList, "4".toList, ">".toList, "if".toList, "leave".toList, "then".toList, "loop".toList, ";".toList, "9".toList, "sum".toList, ".".toList]) ?_ ?_
  · exact .word (bs := []) (t := ":".toList) (by simp) (by simp) (by decide) (by decide)
      (.word (bs := [' ']) (t := "sum".toList) (by decide) (by simp) (by decide) (by decide)
      (.word (bs := [' ']) (t := "0".toList) (by decide) (by simp) (by decide) (by decide)
      (.word (bs := [' ']) (t := "swap".toList) (by decide) (by simp) (by decide) (by decide)
      (.word (bs := [' ']) (t := "1".toList) (by decide) (by simp) (by decide) (by decide)
      (.word (bs := [' ']) (t := "do".toList) (by decide) (by simp) (by decide) (by decide)
      (.word (bs := [' ']) (t := "i".toList) (by decide) (by simp) (by decide) (by decide)
      (.word (bs := [' ']) (t := "+".toList) (by decide) (by simp) (by decide) (by decide)
      (.word (bs := [' ']) (t := "dup".toList) (by decide) (by simp) (by decide) (by decide)
      (.word (bs := [' ']) (t := "4".toList) (by decide) (by simp) (by decide) (by decide)
      (.word (bs := [' ']) (t := ">".toList) (by decide) (by simp) (by decide) (by decide)
      (.word (bs := [' ']) (t := "if".toList) (by decide) (by simp) (by decide) (by decide)
      (.word (bs := [' ']) (t := "leave".toList) (by decide) (by simp) (by decide) (by decide)
      (.word (bs := [' ']) (t := "then".toList) (by decide) (by simp) (by decide) (by decide)
      (.word (bs := [' ']) (t := "loop".toList) (by decide) (by simp) (by decide) (by decide)
      (.word (bs := [' ']) (t := ";".toList) (by decide) (by simp) (by decide) (by decide)
      (.word (bs := [' ']) (t := "9".toList) (by decide) (by simp) (by decide) (by decide)
      (.word (bs := [' ']) (t := "sum".toList) (by decide) (by simp) (by decide) (by decide)
      (.word (bs := [' ']) (t := ".".toList) (rest := []) (by decide) (by simp) (by decide) (by decide) (.blank (by simp))))))))))))))))))))
  · refine demo_define (name := "sum".toList) (name' := "sum".toList) (toks := ["9".toList, "sum".toList, ".".toList]) (p := sumRecipe)
      (body := ["0".toList, "swap".toList, "1".toList, "do".toList, "i".toList, "+".toList, "dup".toList, "4".toList, ">".toList, "if".toList, "leave".toList, "then".toList, "loop".toList]) (by decide)
      (demo_same (by decide)) (by decide) (demo_free (loop_free (by simp))) nofun ?_ ?_ (by decide) (demo_same (by decide)) (by decide) ?_
    · exact .seq (a := ["0".toList]) .token (.seq (a := ["swap".toList]) .token (.seq (a := ["1".toList]) .token
        (.counted (a := ["i".toList, "+".toList, "dup".toList, "4".toList, ">".toList, "if".toList, "leave".toList, "then".toList]) (demo_same (by decide))
          (.seq (a := ["i".toList]) (.index (demo_same (by decide))) (.seq (a := ["+".toList]) .token (.seq (a := ["dup".toList]) .token (.seq (a := ["4".toList]) .token
          (.seq (a := [">".toList]) .token (.ifThen (a := ["leave".toList]) (demo_same (by decide)) (.leave (demo_same (by decide))) (demo_same (by decide)))))))) (demo_same (by decide)))))
    · exact ⟨demo_known_number 0 (loop_free (by simp)) (by decide) (by decide), demo_known_word "swap" (by decide) (demo_same (by decide)) (by decide), demo_known_number 1 (loop_free (by simp)) (by decide) (by decide),
        trivial, demo_known_word "+" (by decide) (demo_same (by decide)) (by decide), demo_known_word "dup" (by decide) (demo_same (by decide)) (by decide), demo_known_number 4 (loop_free (by simp)) (by decide) (by decide),
        demo_known_word ">" (by decide) (demo_same (by decide)) (by decide), rfl⟩
    · exact .run (demo_runs_number 9 (by decide) (by simp [capacity]) (by simp [capacity]) (loop_free (by simp)) (by decide))
        (.run (.call (newer := []) (older := []) nofun (demo_same (by decide)) (by decide) (by decide) sum (.inl rfl))
        (.run (demo_runs_dot (v := 6) (l := []) (by decide) (by decide) (by decide)) (.nil (by decide))))

theorem loop_line2 : Replies loopCfg.fops ": fac dup if dup 1 - recurse * else drop 1 then ; 2 fac .".toList loopV1 766 [] loopV2 564 []
      fun _ => ascii " " ++ ([] ++ ([] ++ (ascii (toString (2 : Cell).toInt) ++ [32] ++ []))) ++ ascii " ok" ++ [13, 10] := by
  have fac0 : ∀ (d : Nat) (l : List Cell), l.length + 8 ≤ capacity → Runs ⟨loopV1, some facRecipe, d⟩ [] (.body facRecipe) (0 :: l) .normal (1 :: l) [] := by
    intro d l hl
    exact .seq (a := []) (b := []) (demo_runs_word "dup" (by decide) (by simp only [List.length_cons]; omega) (by simp only [List.length_cons]; omega) (demo_same (by decide)) rfl) (.elseFalse
      (.seq (a := []) (b := []) (demo_runs_word "drop" (by decide) (by simp only [List.length_cons]; omega) (by omega) (demo_same (by decide)) rfl)
      (demo_runs_number 1 (by decide) (by omega) (by simp only [List.length_cons]; omega) (loop_free (by simp)) (by decide))))
  have facS : ∀ (d : Nat) (v w : Cell) (l : List Cell), l.length + 8 ≤ capacity → v ≠ 0 →
      Runs ⟨loopV1, some facRecipe, d⟩ [] (.body facRecipe) (wrap (v.toInt - 1) :: v :: l) .normal (w :: v :: l) [] →
      Runs ⟨loopV1, some facRecipe, d + 1⟩ [] (.body facRecipe) (v :: l) .normal (wrap (v.toInt * w.toInt) :: l) [] := by
    intro d v w l hl hv h
    refine .seq (a := []) (b := []) (demo_runs_word "dup" (by decide) (by simp only [List.length_cons]; omega) (by simp only [List.length_cons]; omega) (demo_same (by decide)) rfl) (.elseTrue hv ?_)
    refine .seq (a := []) (b := []) (demo_runs_word "dup" (by decide) (by simp only [List.length_cons]; omega) (by simp only [List.length_cons]; omega) (demo_same (by decide)) rfl) ?_
    refine .seq (a := []) (b := []) (demo_runs_number 1 (by decide) (by simp only [List.length_cons]; omega) (by simp only [List.length_cons]; omega) (loop_free (by simp)) (by decide)) ?_
    refine .seq (a := []) (b := []) (demo_runs_word "-" (by decide) (by simp only [List.length_cons]; omega) (by simp only [List.length_cons]; omega) (demo_same (by decide)) rfl) ?_
    refine .seq (a := []) (b := []) (.recurse (by simp only [List.length_cons]; omega) (by simp only [List.length_cons]; omega) h (.inl rfl)) ?_
    exact demo_runs_word "*" (by decide) (by simp only [List.length_cons]; omega) (by simp only [List.length_cons]; omega) (demo_same (by decide)) rfl
  have fac : Runs ⟨loopV1, some facRecipe, 49⟩ [] (.body facRecipe) [2] .normal [2] [] :=
    facS 48 2 1 [] (by decide) (by decide) (facS 47 1 1 [2] (by decide) (by decide) (fac0 47 [1, 2] (by decide)))
  refine .ok (toks := [":".toList, "fac".toList, "dup".toList, "if".toList, "dup".toList, "1".toList, "-".toList, "recurse".toList, "*".toList, "else".toList, "drop".toList, "1".toList, "then".toList, ";".toList, "2".toList, "fac".toList, ".".toList]) ?_ ?_
  · exact .word (bs := []) (t := ":".toList) (by simp) (by simp) (by decide) (by decide)
      (.word (bs := [' ']) (t := "fac".toList) (by decide) (by simp) (by decide) (by decide)
      (.word (bs := [' ']) (t := "dup".toList) (by decide) (by simp) (by decide) (by decide)
      (.word (bs := [' ']) (t := "if".toList) (by decide) (by simp) (by decide) (by decide)
      (.word (bs := [' ']) (t := "dup".toList) (by decide) (by simp) (by decide) (by decide)
      (.word (bs := [' ']) (t := "1".toList) (by decide) (by simp) (by decide) (by decide)
      (.word (bs := [' ']) (t := "-".toList) (by decide) (by simp) (by decide) (by decide)
      (.word (bs := [' ']) (t := "recurse".toList) (by decide) (by simp) (by decide) (by decide)
      (.word (bs := [' ']) (t := "*".toList) (by decide) (by simp) (by decide) (by decide)
      (.word (bs := [' ']) (t := "else".toList) (by decide) (by simp) (by decide) (by decide)
      (.word (bs := [' ']) (t := "drop".toList) (by decide) (by simp) (by decide) (by decide)
      (.word (bs := [' ']) (t := "1".toList) (by decide) (by simp) (by decide) (by decide)
      (.word (bs := [' ']) (t := "then".toList) (by decide) (by simp) (by decide) (by decide)
      (.word (bs := [' ']) (t := ";".toList) (by decide) (by simp) (by decide) (by decide)
      (.word (bs := [' ']) (t := "2".toList) (by decide) (by simp) (by decide) (by decide)
      (.word (bs := [' ']) (t := "fac".toList) (by decide) (by simp) (by decide) (by decide)
      (.word (bs := [' ']) (t := ".".toList) (rest := []) (by decide) (by simp) (by decide) (by decide) (.blank (by simp))))))))))))))))))
  · refine demo_define (name := "fac".toList) (name' := "fac".toList) (toks := ["2".toList, "fac".toList, ".".toList]) (p := facRecipe)
      (body := ["dup".toList, "if".toList, "dup".toList, "1".toList, "-".toList, "recurse".toList, "*".toList, "else".toList, "drop".toList, "1".toList, "then".toList]) (by decide)
      (demo_same (by decide)) (by decide) (demo_free (loop_free (by simp))) (demo_unused (by decide)) ?_ ?_ (by decide) (demo_same (by decide)) (by decide) ?_
    · exact .seq (a := ["dup".toList]) .token (.ifElse (a := ["dup".toList, "1".toList, "-".toList, "recurse".toList, "*".toList]) (b := ["drop".toList, "1".toList]) (demo_same (by decide))
        (.seq (a := ["dup".toList]) .token (.seq (a := ["1".toList]) .token (.seq (a := ["-".toList]) .token (.seq (a := ["recurse".toList]) (.recurse (demo_same (by decide))) .token))))
        (demo_same (by decide)) (.seq (a := ["drop".toList]) .token .token) (demo_same (by decide)))
    · exact ⟨demo_known_word "dup" (by decide) (demo_same (by decide)) (by decide), ⟨demo_known_word "dup" (by decide) (demo_same (by decide)) (by decide), demo_known_number 1 (loop_free (by simp)) (by decide) (by decide),
        demo_known_word "-" (by decide) (demo_same (by decide)) (by decide), trivial, demo_known_word "*" (by decide) (demo_same (by decide)) (by decide)⟩, demo_known_word "drop" (by decide) (demo_same (by decide)) (by decide),
        demo_known_number 1 (loop_free (by simp)) (by decide) (by decide)⟩
    · exact .run (demo_runs_number 2 (by decide) (by simp [capacity]) (by simp [capacity]) (loop_free (by simp)) (by decide))
        (.run (.call (newer := []) (older := loopV1) nofun (demo_same (by decide)) (by decide) (by decide) fac (.inl rfl))
        (.run (demo_runs_dot (v := 2) (l := []) (by decide) (by decide) (by decide)) (.nil (by decide))))

theorem loop_line3 : Replies loopCfg.fops ": seek 5 0 do i . i 1 = if unloop exit then loop ; seek".toList loopV2 564 [] loopV3 329 []
      fun _ => ascii " " ++ (ascii "0 1 " ++ []) ++ ascii " ok" ++ [13, 10] := by
  have turn3 : ∀ (idx : Cell) (e : Out) (o : List Byte), o = ascii (toString idx.toInt) ++ [32] →
      Runs ⟨loopV2, some seekRecipe, 46⟩ [(5, idx)] (.body (.ifThen (.exit 1))) [truth (idx = 1)] e [] [] →
      Runs ⟨loopV2, some seekRecipe, 46⟩ [(5, idx)] (.body seekBody) [] e [] o := by
    intro idx e o ho h
    have : Runs ⟨loopV2, some seekRecipe, 46⟩ [(5, idx)] (.body seekBody) [] e [] ([] ++ (ascii (toString idx.toInt) ++ [32] ++ ([] ++ ([] ++ ([] ++ []))))) := .seq (.index (by simp [capacity]))
      (.seq (demo_runs_dot (V := loopV2) (by decide) (by simp [capacity]) (by simp [capacity]))
      (.seq (a := []) (b := []) (.index (by simp [capacity])) (.seq (a := []) (b := []) (demo_runs_number 1 (by decide) (by simp [capacity]) (by simp [capacity]) (loop_free (by simp)) (by decide)) (.seq (a := []) (b := []) (demo_runs_word "=" (by decide) (by simp [capacity]) (by simp [capacity]) (demo_same (by decide)) rfl) h))))
    rw [ho]
    simpa using this
  obtain ⟨D, seek, rfl⟩ : ∃ D, Runs ⟨loopV2, some seekRecipe, 49⟩ [] (.body seekRecipe) [] .exit [] D ∧ D = ascii "0 1 " :=
    ⟨_, .seq (a := []) (demo_runs_number 5 (by decide) (by simp [capacity]) (by simp [capacity]) (loop_free (by simp)) (by decide)) (.seq (a := []) (demo_runs_number 0 (by decide) (by simp [capacity]) (by simp [capacity]) (loop_free (by simp)) (by decide))
      (.loop (d := 46) nofun (.loopNext (turn3 0 _ _ rfl .ifFalse) (by decide) (.loopExit (turn3 1 _ _ rfl (.ifTrue (by decide) .exit)))))), by decide⟩
  refine .ok (toks := [":".toList, "seek".toList, "5".toList, "0".toList, "do".toList, "i".toList, ".".toList, "i".toList, "1".toList, "=".toList, "if".toList, "unloop".toList, "exit".toList, "then".toList, "loop".toList, ";".toList, "seek".toList]) ?_ ?_
  · exact .word (bs := []) (t := ":".toList) (by simp) (by simp) (by decide) (by decide)
      (.word (bs := [' ']) (t := "seek".toList) (by decide) (by simp) (by decide) (by decide)
      (.word (bs := [' ']) (t := "5".toList) (by decide) (by simp) (by decide) (by decide)
      (.word (bs := [' ']) (t := "0".toList) (by decide) (by simp) (by decide) (by decide)
      (.word (bs := [' ']) (t := "do".toList) (by decide) (by simp) (by decide) (by decide)
      (.word (bs := [' ']) (t := "i".toList) (by decide) (by simp) (by decide) (by decide)
      (.word (bs := [' ']) (t := ".".toList) (by decide) (by simp) (by decide) (by decide)
      (.word (bs := [' ']) (t := "i".toList) (by decide) (by simp) (by decide) (by decide)
      (.word (bs := [' ']) (t := "1".toList) (by decide) (by simp) (by decide) (by decide)
      (.word (bs := [' ']) (t := "=".toList) (by decide) (by simp) (by decide) (by decide)
      (.word (bs := [' ']) (t := "if".toList) (by decide) (by simp) (by decide) (by decide)
      (.word (bs := [' ']) (t := "unloop".toList) (by decide) (by simp) (by decide) (by decide)
      (.word (bs := [' ']) (t := "exit".toList) (by decide) (by simp) (by decide) (by decide)
      (.word (bs := [' ']) (t := "then".toList) (by decide) (by simp) (by decide) (by decide)
      (.word (bs := [' ']) (t := "loop".toList) (by decide) (by simp) (by decide) (by decide)
      (.word (bs := [' ']) (t := ";".toList) (by decide) (by simp) (by decide) (by decide)
      (.word (bs := [' ']) (t := "seek".toList) (rest := []) (by decide) (by simp) (by decide) (by decide) (.blank (by simp))))))))))))))))))
  · refine demo_define (name := "seek".toList) (name' := "seek".toList) (toks := ["seek".toList]) (p := seekRecipe)
      (body := ["5".toList, "0".toList, "do".toList, "i".toList, ".".toList, "i".toList, "1".toList, "=".toList, "if".toList, "unloop".toList, "exit".toList, "then".toList, "loop".toList]) (by decide)
      (demo_same (by decide)) (by decide) (demo_free (loop_free (by simp))) (demo_unused (by decide)) ?_ ?_ (by decide) (demo_same (by decide)) (by decide) ?_
    · exact .seq (a := ["5".toList]) .token (.seq (a := ["0".toList]) .token
        (.counted (a := ["i".toList, ".".toList, "i".toList, "1".toList, "=".toList, "if".toList, "unloop".toList, "exit".toList, "then".toList]) (demo_same (by decide))
          (.seq (a := ["i".toList]) (.index (demo_same (by decide))) (.seq (a := [".".toList]) .token (.seq (a := ["i".toList]) (.index (demo_same (by decide)))
          (.seq (a := ["1".toList]) .token (.seq (a := ["=".toList]) .token (.ifThen (a := ["unloop".toList, "exit".toList]) (demo_same (by decide))
          (.unloop (demo_same (by decide)) (.exit (demo_same (by decide)))) (demo_same (by decide)))))))) (demo_same (by decide))))
    · exact ⟨demo_known_number 5 (loop_free (by simp)) (by decide) (by decide), demo_known_number 0 (loop_free (by simp)) (by decide) (by decide), trivial,
        .word (name := ".") (by simp [calcWords]) (demo_same (by decide)) (demo_unused (by decide)), trivial, demo_known_number 1 (loop_free (by simp)) (by decide) (by decide),
        demo_known_word "=" (by decide) (demo_same (by decide)) (by decide), trivial⟩
    · exact .run (.call (l' := []) (newer := []) (older := loopV2) nofun (demo_same (by decide)) (by decide) (by decide) seek (.inr rfl)) (.nil (by decide))

theorem tick_turn (v : Cell) (e : Out) (o : List Byte) (ho : o = ascii (toString v.toInt) ++ [32])
    (h : Runs ⟨loopV3, some (.againLoop tickBody), 49⟩ [] (.body (.ifThen (.exit 0))) [truth ((wrap (v.toInt - 1)).toInt = 0), wrap (v.toInt - 1)] e [wrap (v.toInt - 1)] []) :
    Runs ⟨loopV3, some (.againLoop tickBody), 49⟩ [] (.body tickBody) [v] e [wrap (v.toInt - 1)] o := by
  have : Runs ⟨loopV3, some (.againLoop tickBody), 49⟩ [] (.body tickBody) [v] e [wrap (v.toInt - 1)] ([] ++ (ascii (toString v.toInt) ++ [32] ++ ([] ++ ([] ++ ([] ++ ([] ++ [])))))) :=
    .seq (demo_runs_word "dup" (by decide) (by simp [capacity]) (by simp [capacity]) (demo_same (by decide)) rfl) (.seq (demo_runs_dot (V := loopV3) (by decide) (by simp [capacity]) (by simp [capacity]))
      (.seq (demo_runs_number 1 (by decide) (by simp [capacity]) (by simp [capacity]) (loop_free (by simp)) (by decide)) (.seq (demo_runs_word "-" (by decide) (by simp [capacity]) (by simp [capacity]) (demo_same (by decide)) rfl)
      (.seq (demo_runs_word "dup" (by decide) (by simp [capacity]) (by simp [capacity]) (demo_same (by decide)) rfl) (.seq (demo_runs_word "0=" (by decide) (by simp [capacity]) (by simp [capacity]) (demo_same (by decide)) rfl) h)))))
  rw [ho]
  simpa using this

theorem tick_runs : ∃ D, Runs ⟨loopV3, some (.againLoop tickBody), 49⟩ [] (.body (.againLoop tickBody)) [2] .exit [0] D ∧ D = ascii "2 1 " :=
  ⟨_, .againNext (tick_turn 2 _ _ rfl .ifFalse) (.againStop (tick_turn 1 _ _ rfl (.ifTrue (by decide) .exit)) nofun), by decide⟩

theorem loop_line4 : Replies loopCfg.fops ": tick begin dup . 1 - dup 0= if exit then again ; 2 tick drop".toList loopV3 329 [] loopV4 126 []
      fun _ => ascii " " ++ ([] ++ (ascii "2 1 " ++ ([] ++ []))) ++ ascii " ok" ++ [13, 10] := by
  obtain ⟨D, tick, rfl⟩ := tick_runs
  refine .ok (toks := [":".toList, "tick".toList, "begin".toList, "dup".toList, ".".toList, "1".toList, "-".toList, "dup".toList, "0=".toList, "if".toList, "exit".toList, "then".toList, "again".toList, ";".toList, "2".toList, "tick".toList, "drop".toList]) ?_ ?_
  · exact .word (bs := []) (t := ":".toList) (by simp) (by simp) (by decide) (by decide)
      (.word (bs := [' ']) (t := "tick".toList) (by decide) (by simp) (by decide) (by decide)
      (.word (bs := [' ']) (t := "begin".toList) (by decide) (by simp) (by decide) (by decide)
      (.word (bs := [' ']) (t := "dup".toList) (by decide) (by simp) (by decide) (by decide)
      (.word (bs := [' ']) (t := ".".toList) (by decide) (by simp) (by decide) (by decide)
      (.word (bs := [' ']) (t := "1".toList) (by decide) (by simp) (by decide) (by decide)
      (.word (bs := [' ']) (t := "-".toList) (by decide) (by simp) (by decide) (by decide)
      (.word (bs := [' ']) (t := "dup".toList) (by decide) (by simp) (by decide) (by decide)
      (.word (bs := [' ']) (t := "0=".toList) (by decide) (by simp) (by decide) (by decide)
      (.word (bs := [' ']) (t := "if".toList) (by decide) (by simp) (by decide) (by decide)
      (.word (bs := [' ']) (t := "exit".toList) (by decide) (by simp) (by decide) (by decide)
      (.word (bs := [' ']) (t := "then".toList) (by decide) (by simp) (by decide) (by decide)
      (.word (bs := [' ']) (t := "again".toList) (by decide) (by simp) (by decide) (by decide)
      (.word (bs := [' ']) (t := ";".toList) (by decide) (by simp) (by decide) (by decide)
      (.word (bs := [' ']) (t := "2".toList) (by decide) (by simp) (by decide) (by decide)
      (.word (bs := [' ']) (t := "tick".toList) (by decide) (by simp) (by decide) (by decide)
      (.word (bs := [' ']) (t := "drop".toList) (rest := []) (by decide) (by simp) (by decide) (by decide) (.blank (by simp))))))))))))))))))
  · refine demo_define (name := "tick".toList) (name' := "tick".toList) (toks := ["2".toList, "tick".toList, "drop".toList]) (p := .againLoop tickBody)
      (body := ["begin".toList, "dup".toList, ".".toList, "1".toList, "-".toList, "dup".toList, "0=".toList, "if".toList, "exit".toList, "then".toList, "again".toList]) (by decide)
      (demo_same (by decide)) (by decide) (demo_free (loop_free (by simp))) (demo_unused (by decide)) ?_ ?_ (by decide) (demo_same (by decide)) (by decide) ?_
    · exact .againLoop (a := ["dup".toList, ".".toList, "1".toList, "-".toList, "dup".toList, "0=".toList, "if".toList, "exit".toList, "then".toList]) (demo_same (by decide))
        (.seq (a := ["dup".toList]) .token (.seq (a := [".".toList]) .token (.seq (a := ["1".toList]) .token (.seq (a := ["-".toList]) .token (.seq (a := ["dup".toList]) .token
        (.seq (a := ["0=".toList]) .token (.ifThen (a := ["exit".toList]) (demo_same (by decide)) (.exit (demo_same (by decide))) (demo_same (by decide))))))))) (demo_same (by decide))
    · exact ⟨demo_known_word "dup" (by decide) (demo_same (by decide)) (by decide), .word (name := ".") (by simp [calcWords]) (demo_same (by decide)) (demo_unused (by decide)),
        demo_known_number 1 (loop_free (by simp)) (by decide) (by decide), demo_known_word "-" (by decide) (demo_same (by decide)) (by decide),
        demo_known_word "dup" (by decide) (demo_same (by decide)) (by decide), demo_known_word "0=" (by decide) (demo_same (by decide)) (by decide), trivial⟩
    · exact .run (demo_runs_number 2 (by decide) (by simp [capacity]) (by simp [capacity]) (loop_free (by simp)) (by decide))
        (.run (.call (newer := []) (older := loopV3) nofun (demo_same (by decide)) (by decide) (by decide) tick (.inr rfl))
        (.run (demo_runs_word "drop" (by decide) (by simp [capacity]) (by simp [capacity]) (demo_same (by decide)) rfl) (.nil (by decide))))

theorem loop_dialogue : ∃ out, Teaching loopCfg.fops 1000 (argsText []) loopLines out ∧ ∀ tr, out tr = loopPrinted := by
  refine ⟨_, .ok (toks := []) (.blank (by simp [argsText])) (.nil (by decide))
    (.line (by decide) loop_line1 (.line (by decide) loop_line2 (.line (by decide) loop_line3 (.line (by decide) loop_line4 .done)))), fun tr => ?_⟩
  simp only [lineOf, if_true, loopPrinted]
  decide

/-- Non-vacuity of C70_program: loops with `leave`, `exit` and `again`, and a word that calls itself. -/
example : ∃ N v, (∀ fuel, N ≤ fuel → rtfMain loopCfg 3 fuel 4096 13288 [] = .ok v) ∧ v.stdout = greeting ++ loopPrinted := by
  obtain ⟨out, h1, h2⟩ := loop_dialogue
  obtain ⟨N, v, tr, g1, g2, -⟩ := C70_program loopCfg 0 4096 13288 [] (by decide) (by decide) (by decide) (by decide) (by decide) h1
    ⟨fun i t hi => by show (match loopLines[0 + i]? with | some t => Answer.line t | none => .eof) = _; rw [Nat.zero_add, hi], rfl⟩
  exact ⟨N, v, g1, by rw [g2, h2]; rfl⟩

/-- In this dialogue words are defined again. The last definition counts, also of a word of the program, and `quad` and `sq`
do what they did when the user defined them. -/
def againLines : List (List Char) := [": sq dup * ;".toList, ": quad sq sq ;".toList, ": SQ dup + ;".toList, "2 sq . 2 quad .".toList, ": dup 7 ; 5 sq . dup .".toList]

def againCfg : Cfg := { demoCfg with answers := fun k => match againLines[k]? with | some t => .line t | none => .eof }

def againPrinted : List Byte := ascii "  ok" ++ [13, 10] ++ (ascii "  ok" ++ [13, 10]) ++ (ascii " Redefining sq ok" ++ [13, 10]) ++
  (ascii " 4 16  ok" ++ [13, 10]) ++ (ascii " Redefining dup10 7  ok" ++ [13, 10])

def quadRecipe : Recipe := .seq (.token "sq".toList) (.token "sq".toList)
def twiceRecipe : Recipe := .seq (.token "dup".toList) (.token "+".toList)
def againV1 : Vocabulary := [("sq".toList, sqRecipe)]
def againV2 : Vocabulary := ("quad".toList, quadRecipe) :: againV1
def againV3 : Vocabulary := ("sq".toList, twiceRecipe) :: againV2
def againV4 : Vocabulary := ("dup".toList, .token "7".toList) :: againV3

/-- None of these tokens names a word of the program. -/
theorem again_free {t : String} (ht : t ∈ ["2", "5", "7", "sq", "quad"]) :
    (rtfWords.all fun n => (utf8 t.toList).map lowerByte != (ascii n).map lowerByte) = true :=
  List.all_eq_true.2 fun n hn => List.all_eq_true.1 (List.all_eq_true.1 (by decide +kernel :
    (rtfWords.all fun n => ["2", "5", "7", "sq", "quad"].all fun t => (utf8 t.toList).map lowerByte != (ascii n).map lowerByte) = true) n hn) _ ht

theorem demo_definable {tok : List Char} (h : (grammar.all fun n => (utf8 tok).map lowerByte != (ascii n).map lowerByte) = true) : Definable tok := by
  intro n hn he
  have := List.all_eq_true.1 h n hn
  rw [(sameName_iff _ _).1 he] at this
  simp at this

theorem again_line1 : Replies againCfg.fops ": sq dup * ;".toList [] 1000 [] againV1 943 [] fun _ => ascii " " ++ [] ++ ascii " ok" ++ [13, 10] := by
  refine .ok (toks := [":".toList, "sq".toList, "dup".toList, "*".toList, ";".toList]) ?_ ?_
  · exact .word (bs := []) (t := ":".toList) (by simp) (by simp) (by decide) (by decide)
      (.word (bs := [' ']) (t := "sq".toList) (by decide) (by simp) (by decide) (by decide)
      (.word (bs := [' ']) (t := "dup".toList) (by decide) (by simp) (by decide) (by decide)
      (.word (bs := [' ']) (t := "*".toList) (by decide) (by simp) (by decide) (by decide)
      (.word (bs := [' ']) (t := ";".toList) (rest := []) (by decide) (by simp) (by decide) (by decide) (.blank (by simp))))))
  · exact demo_define (name := "sq".toList) (name' := "sq".toList) (toks := []) (p := sqRecipe) (body := ["dup".toList, "*".toList]) (by decide) (demo_same (by decide)) (by decide)
      (demo_free (again_free (by simp))) nofun (.seq (a := ["dup".toList]) .token .token)
      ⟨demo_known_word "dup" (by decide) (demo_same (by decide)) (by decide), demo_known_word "*" (by decide) (demo_same (by decide)) (by decide)⟩
      (by decide) (demo_same (by decide)) (by decide) (.nil (by decide))

theorem again_line2 : Replies againCfg.fops ": quad sq sq ;".toList againV1 943 [] againV2 884 [] fun _ => ascii " " ++ [] ++ ascii " ok" ++ [13, 10] := by
  refine .ok (toks := [":".toList, "quad".toList, "sq".toList, "sq".toList, ";".toList]) ?_ ?_
  · exact .word (bs := []) (t := ":".toList) (by simp) (by simp) (by decide) (by decide)
      (.word (bs := [' ']) (t := "quad".toList) (by decide) (by simp) (by decide) (by decide)
      (.word (bs := [' ']) (t := "sq".toList) (by decide) (by simp) (by decide) (by decide)
      (.word (bs := [' ']) (t := "sq".toList) (by decide) (by simp) (by decide) (by decide)
      (.word (bs := [' ']) (t := ";".toList) (rest := []) (by decide) (by simp) (by decide) (by decide) (.blank (by simp))))))
  · exact demo_define (name := "quad".toList) (name' := "quad".toList) (toks := []) (p := quadRecipe) (body := ["sq".toList, "sq".toList]) (by decide) (demo_same (by decide)) (by decide)
      (demo_free (again_free (by simp))) (demo_unused (by decide)) (.seq (a := ["sq".toList]) .token .token)
      ⟨.user (e := ("sq".toList, sqRecipe)) (by simp [againV1]) (demo_same (by decide)), .user (e := ("sq".toList, sqRecipe)) (by simp [againV1]) (demo_same (by decide))⟩
      (by decide) (demo_same (by decide)) (by decide) (.nil (by decide))

theorem again_line3 : Replies againCfg.fops ": SQ dup + ;".toList againV2 884 [] againV3 827 []
    fun _ => ascii " " ++ ((ascii "Redefining " ++ utf8 "sq".toList) ++ []) ++ ascii " ok" ++ [13, 10] := by
  refine .ok (toks := [":".toList, "SQ".toList, "dup".toList, "+".toList, ";".toList]) ?_ ?_
  · exact .word (bs := []) (t := ":".toList) (by simp) (by simp) (by decide) (by decide)
      (.word (bs := [' ']) (t := "SQ".toList) (by decide) (by simp) (by decide) (by decide)
      (.word (bs := [' ']) (t := "dup".toList) (by decide) (by simp) (by decide) (by decide)
      (.word (bs := [' ']) (t := "+".toList) (by decide) (by simp) (by decide) (by decide)
      (.word (bs := [' ']) (t := ";".toList) (rest := []) (by decide) (by simp) (by decide) (by decide) (.blank (by simp))))))
  · exact .define (name := "SQ".toList) (name' := "sq".toList) (toks := []) (p := twiceRecipe) (body := ["dup".toList, "+".toList]) (by decide) (demo_same (by decide)) (by decide)
      (demo_definable (by decide)) (.again fun h => h.2 ("sq".toList, sqRecipe) (by simp [againV2, againV1]) (demo_same (by decide))) (.seq (a := ["dup".toList]) .token .token)
      ⟨demo_known_word "dup" (by decide) (demo_same (by decide)) (by decide), demo_known_word "+" (by decide) (demo_same (by decide)) (by decide)⟩
      (by decide) (demo_same (by decide)) (by decide) (.nil (by decide))

theorem again_sq {d : Nat} {g : Option Recipe} (v : Cell) :
    Runs ⟨againV1, g, d + 1⟩ [] (.body (.token "sq".toList)) [v] .normal [wrap (v.toInt * v.toInt)] [] :=
  .call (newer := []) (older := []) nofun (demo_same (by decide)) (by simp [capacity]) (by simp [capacity])
    (.seq (a := []) (b := []) (demo_runs_word "dup" (by decide) (by simp [capacity]) (by simp [capacity]) (demo_same (by decide)) rfl)
      (demo_runs_word "*" (by decide) (by simp [capacity]) (by simp [capacity]) (demo_same (by decide)) rfl)) (.inl rfl)

theorem again_twice {d : Nat} {g : Option Recipe} {newer : Vocabulary} (h : Unused newer "sq".toList) (v : Cell) :
    Runs ⟨newer ++ againV3, g, d + 1⟩ [] (.body (.token "sq".toList)) [v] .normal [wrap (v.toInt + v.toInt)] [] :=
  .call (newer := newer) (older := againV2) h (demo_same (by decide)) (by simp [capacity]) (by simp [capacity])
    (.seq (a := []) (b := []) (demo_runs_word "dup" (by decide) (by simp [capacity]) (by simp [capacity]) (demo_same (by decide)) rfl)
      (demo_runs_word "+" (by decide) (by simp [capacity]) (by simp [capacity]) (demo_same (by decide)) rfl)) (.inl rfl)

theorem again_line4 : Replies againCfg.fops "2 sq . 2 quad .".toList againV3 827 [] againV3 827 []
    fun _ => ascii " " ++ ([] ++ ([] ++ (ascii (toString (4 : Cell).toInt) ++ [32] ++ ([] ++ ([] ++ (ascii (toString (16 : Cell).toInt) ++ [32] ++ [])))))) ++ ascii " ok" ++ [13, 10] := by
  refine .ok (toks := ["2".toList, "sq".toList, ".".toList, "2".toList, "quad".toList, ".".toList]) ?_ ?_
  · exact .word (bs := []) (t := "2".toList) (by simp) (by simp) (by decide) (by decide)
      (.word (bs := [' ']) (t := "sq".toList) (by decide) (by simp) (by decide) (by decide)
      (.word (bs := [' ']) (t := ".".toList) (by decide) (by simp) (by decide) (by decide)
      (.word (bs := [' ']) (t := "2".toList) (by decide) (by simp) (by decide) (by decide)
      (.word (bs := [' ']) (t := "quad".toList) (by decide) (by simp) (by decide) (by decide)
      (.word (bs := [' ']) (t := ".".toList) (rest := []) (by decide) (by simp) (by decide) (by decide) (.blank (by simp)))))))
  · have two : Runs (prompt againV3) [] (.body (.token "2".toList)) [] .normal [2] [] :=
      demo_runs_number 2 (by decide) (by decide) (by decide) (again_free (by simp)) (by decide)
    have quad : Runs (prompt againV3) [] (.body (.token "quad".toList)) [2] .normal [16] [] :=
      .call (newer := [("sq".toList, twiceRecipe)]) (older := againV1) (demo_unused (by decide)) (demo_same (by decide)) (by decide) (by decide)
        (.seq (a := []) (b := []) (again_sq 2) (again_sq 4)) (.inl rfl)
    exact .run two (.run (again_twice (newer := []) nofun 2) (.run (demo_runs_dot (v := 4) (l := []) (by decide) (by decide) (by decide))
      (.run two (.run quad (.run (demo_runs_dot (v := 16) (l := []) (by decide) (by decide) (by decide)) (.nil (by decide)))))))

theorem again_line5 : Replies againCfg.fops ": dup 7 ; 5 sq . dup .".toList againV3 827 [] againV4 785 []
    fun _ => ascii " " ++ ((ascii "Redefining " ++ utf8 "dup".toList) ++ ([] ++ ([] ++ (ascii (toString (10 : Cell).toInt) ++ [32] ++ ([] ++ (ascii (toString (7 : Cell).toInt) ++ [32] ++ [])))))) ++ ascii " ok" ++ [13, 10] := by
  refine .ok (toks := [":".toList, "dup".toList, "7".toList, ";".toList, "5".toList, "sq".toList, ".".toList, "dup".toList, ".".toList]) ?_ ?_
  · exact .word (bs := []) (t := ":".toList) (by simp) (by simp) (by decide) (by decide)
      (.word (bs := [' ']) (t := "dup".toList) (by decide) (by simp) (by decide) (by decide)
      (.word (bs := [' ']) (t := "7".toList) (by decide) (by simp) (by decide) (by decide)
      (.word (bs := [' ']) (t := ";".toList) (by decide) (by simp) (by decide) (by decide)
      (.word (bs := [' ']) (t := "5".toList) (by decide) (by simp) (by decide) (by decide)
      (.word (bs := [' ']) (t := "sq".toList) (by decide) (by simp) (by decide) (by decide)
      (.word (bs := [' ']) (t := ".".toList) (by decide) (by simp) (by decide) (by decide)
      (.word (bs := [' ']) (t := "dup".toList) (by decide) (by simp) (by decide) (by decide)
      (.word (bs := [' ']) (t := ".".toList) (rest := []) (by decide) (by simp) (by decide) (by decide) (.blank (by simp))))))))))
  · refine .define (name := "dup".toList) (name' := "dup".toList) (toks := ["5".toList, "sq".toList, ".".toList, "dup".toList, ".".toList]) (p := .token "7".toList) (body := ["7".toList]) (by decide)
      (demo_same (by decide)) (by decide) (demo_definable (by decide)) (.again fun h => h.1 "dup" (by decide +kernel) (demo_same (by decide))) .token
      (demo_known_number 7 (again_free (by simp)) (by decide) (by decide)) (by decide) (demo_same (by decide)) (by decide) ?_
    have five : Runs (prompt againV4) [] (.body (.token "5".toList)) [] .normal [5] [] :=
      demo_runs_number 5 (by decide) (by decide) (by decide) (again_free (by simp)) (by decide)
    have dup : Runs (prompt againV4) [] (.body (.token "dup".toList)) [] .normal [7] [] :=
      .call (newer := []) (older := againV3) nofun (demo_same (by decide)) (by decide) (by decide)
        (demo_runs_number 7 (by decide) (by decide) (by decide) (again_free (by simp)) (by decide)) (.inl rfl)
    exact .run five (.run (again_twice (newer := [("dup".toList, .token "7".toList)]) (demo_unused (by decide)) 5)
      (.run (demo_runs_dot (v := 10) (l := []) (by decide) (by decide) (by decide))
      (.run dup (.run (demo_runs_dot (v := 7) (l := []) (by decide) (by decide) (by decide)) (.nil (by decide))))))

theorem again_dialogue : ∃ out, Teaching againCfg.fops 1000 (argsText []) againLines out ∧ ∀ tr, out tr = againPrinted := by
  refine ⟨_, .ok (toks := []) (.blank (by simp [argsText])) (.nil (by decide))
    (.line (by decide) again_line1 (.line (by decide) again_line2 (.line (by decide) again_line3 (.line (by decide) again_line4 (.line (by decide) again_line5 .done))))), fun tr => ?_⟩
  simp only [lineOf, if_true, againPrinted]
  decide

/-- Non-vacuity of C70_program: words defined again, one of the user's and one of the program's. -/
example : ∃ N v, (∀ fuel, N ≤ fuel → rtfMain againCfg 3 fuel 4096 13288 [] = .ok v) ∧ v.stdout = greeting ++ againPrinted := by
  obtain ⟨out, h1, h2⟩ := again_dialogue
  obtain ⟨N, v, tr, g1, g2, -⟩ := C70_program againCfg 0 4096 13288 [] (by decide) (by decide) (by decide) (by decide) (by decide) h1
    ⟨fun i t hi => by show (match againLines[0 + i]? with | some t => Answer.line t | none => .eof) = _; rw [Nat.zero_add, hi], rfl⟩
  exact ⟨N, v, g1, by rw [g2, h2]; rfl⟩

end Verif

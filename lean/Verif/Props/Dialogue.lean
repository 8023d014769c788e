import Verif.Props.Teaching

/-!
# A dialogue with the program rtf (C69)
-/

namespace Verif
open Spec Stack

section
variable {cfg : Cfg} {n b k : Nat} {s s0 a u t : VM} {ix : String → Nat} {text tok pre rest : List Char} {toks more texts : List (List Char)}
  {l l' : List Cell} {o p : List Byte} {out : (Nat → List Byte) → List Byte}

theorem unused_nil (tok : List Char) : Unused [] tok := nofun

theorem Spec.Calculation.turns {out : List Byte} (h : Calculation toks l l' out) : Turns toks [] 0 l [] 0 l' out := by
  induction h with
  | nil h => exact .nil h
  | cons h1 h2 h3 ih => exact .run (.basic (unused_nil _) h1 h3.room h2) ih

theorem Spec.Answers.replies {fops : FloatOps} {ans : List Byte → List Byte} (h : Answers fops text l l' ans) : Replies fops text [] 0 l [] 0 l' ans := by
  cases h with
  | ok h1 h2 => exact .ok h1 h2.turns
  | error h1 h2 h3 => exact .error h1 h2.turns (unused_nil _) h3
  | abort h1 h2 h3 => exact .abort h1 h2.turns (unused_nil _) h3

theorem Spec.Dialogue.lessons {fops : FloatOps} (h : Dialogue fops l o texts out) : Lessons fops [] 0 l o texts out := by
  induction h with
  | done => exact .done
  | line h1 h2 _ ih => exact .line h1 h2.replies ih

/-- A dialogue without definitions is a dialogue. -/
theorem Spec.Conversation.teaching {fops : FloatOps} (h : Conversation fops text texts out) : Teaching fops 0 text texts out := by
  cases h with
  | ok h1 h2 h3 => exact .ok h1 h2.turns h3.lessons
  | error h1 h2 h3 h4 => exact .error h1 h2.turns (unused_nil _) h3 h4.lessons
  | abort h1 h2 h3 h4 => exact .abort h1 h2.turns (unused_nil _) h3 h4.lessons

/-- C69. A whole run of the program from where it has loaded its texts. -/
theorem C69_conversation (hR : RtfLoaded b ix text s) (hC : Conversation cfg.fops text texts out) (hA : Types cfg s.host.calls texts) :
    ∃ N v tr, (∀ fuel, N ≤ fuel → repl cfg (n + 3) fuel s = .ok ((), v)) ∧ v.stdout = s.stdout ++ out tr ∧ v.outbuf = some [] :=
  C70_conversation hR (by have := hR.core.listening.space.inside; simp only [DataSpace.here, DataSpace.limit]; omega) hC.teaching hA

/-- C69. A whole run of the program, wherever its memory is. The arguments are evaluated first. -/
theorem C69_program (cfg : Cfg) (depth start cap : Nat) (args : List (List Char)) (hpos : 0 < start) (halign : start % 16 = 0)
    (hroom : 12288 ≤ cap) (hsmall : start + cap < 2 ^ 63) (hargs : byteLen (argsText args) < 2 ^ 62)
    (hC : Conversation cfg.fops (argsText args) texts out) (hA : Types cfg 0 texts) :
    ∃ N v tr, (∀ fuel, N ≤ fuel → rtfMain cfg (depth + 3) fuel start cap args = .ok v) ∧
      v.stdout = (if args.isEmpty then greeting else []) ++ out tr ∧ v.outbuf = some [] :=
  program_runs cfg depth start cap args hpos halign hroom hsmall hargs fun _ _ h1 _ h3 =>
    C69_conversation h1 hC (by rw [h3]; exact hA)

end

/-- The user types four lines and then ends the input. -/
def demoLines : List (List Char) := ["1 2 + .".toList, "42 emit 7 3 .r cr 2 spaces space".toList, "7 foo 8".toList, "5 0 /".toList]

def demoTyped : Cfg := { demoCfg with answers := fun k => match demoLines[k]? with | some t => .line t | none => .eof }

/-- What the program prints. -/
def demoPrinted (traces : Nat → List Byte) : List Byte :=
  ascii " 3  ok" ++ [13, 10] ++
  (ascii " *  7" ++ [10] ++ ascii "    ok" ++ [13, 10]) ++
  (ascii " foo Undefined word, backtrace: " ++ traces 2 ++ [13, 10]) ++
  (ascii " / Division by zero, backtrace: " ++ traces 3 ++ [13, 10])

theorem demo_dialogue : ∃ out, Conversation demoTyped.fops (argsText []) demoLines out ∧ ∀ tr, out tr = demoPrinted tr := by
  have w1 : ∀ l, Calculates "1".toList l (1 :: l) [] := fun l => demo_number (by decide +kernel) (by decide)
  have w2 : ∀ l, Calculates "2".toList l (2 :: l) [] := fun l => demo_number (by decide +kernel) (by decide)
  have w7 : ∀ l, Calculates "7".toList l (7 :: l) [] := fun l => demo_number (by decide +kernel) (by decide)
  have w3 : ∀ l, Calculates "3".toList l (3 :: l) [] := fun l => demo_number (by decide +kernel) (by decide)
  have w42 : ∀ l, Calculates "42".toList l (42 :: l) [] := fun l => demo_number (by decide +kernel) (by decide)
  have w5 : ∀ l, Calculates "5".toList l (5 :: l) [] := fun l => demo_number (by decide +kernel) (by decide)
  have w0 : ∀ l, Calculates "0".toList l (0 :: l) [] := fun l => demo_number (by decide +kernel) (by decide)
  have a1 : Answers demoTyped.fops "1 2 + .".toList [] [] fun _ => ascii " " ++ (ascii (toString (3 : Cell).toInt) ++ [32]) ++ ascii " ok" ++ [13, 10] := by
    refine .ok (toks := ["1".toList, "2".toList, "+".toList, ".".toList]) ?_ ?_
    · exact .word (bs := []) (t := ['1']) (by simp) (by simp) (by decide) (by decide)
        (.word (bs := [' ']) (t := ['2']) (by decide) (by simp) (by decide) (by decide)
        (.word (bs := [' ']) (t := ['+']) (by decide) (by simp) (by decide) (by decide)
        (.word (bs := [' ']) (t := ['.']) (rest := []) (by decide) (by simp) (by decide) (by decide) (.blank (by simp)))))
    · exact .cons (a := []) (by decide) (w1 _) (.cons (a := []) (by decide) (w2 _) (.cons (a := []) (by decide)
        (.word (name := "+") (e := binary fun a b => wrap (a.toInt + b.toInt)) (l' := [3]) (by simp [effects]) ((sameName_iff _ _).2 (by decide)) rfl)
        (.cons (b := []) (l := [3]) (l1 := []) (by decide) (.dot (tok := ".".toList) ((sameName_iff _ _).2 (by decide))) (.nil (by decide)))))
  have same : ∀ {x y : List Byte}, x.map lowerByte = y.map lowerByte → SameName x y := fun h => (sameName_iff _ _).2 h
  obtain ⟨D, b1, hD⟩ : ∃ D, Calculation ["42".toList, "emit".toList, "7".toList, "3".toList, ".r".toList, "cr".toList, "2".toList, "spaces".toList, "space".toList] [] [] D ∧
      D = ascii "*  7" ++ [10] ++ ascii "   " :=
    ⟨_, .cons (by decide) (w42 _) (.cons (by decide) (.emit (same (by decide))) (.cons (by decide) (w7 _) (.cons (by decide) (w3 _)
      (.cons (by decide) (.dotR (same (by decide)) (by decide) rfl) (.cons (by decide) (.cr (same (by decide))) (.cons (by decide) (w2 _)
      (.cons (by decide) (.spaces (same (by decide))) (.cons (by decide) (.space (same (by decide))) (.nil (by decide)))))))))), by decide⟩
  have b2 : Answers demoTyped.fops "42 emit 7 3 .r cr 2 spaces space".toList [] [] fun _ => ascii " " ++ D ++ ascii " ok" ++ [13, 10] := by
    refine .ok ?_ b1
    exact .word (bs := []) (t := "42".toList) (by simp) (by simp) (by decide) (by decide)
        (.word (bs := [' ']) (t := "emit".toList) (by decide) (by simp) (by decide) (by decide)
        (.word (bs := [' ']) (t := "7".toList) (by decide) (by simp) (by decide) (by decide)
        (.word (bs := [' ']) (t := "3".toList) (by decide) (by simp) (by decide) (by decide)
        (.word (bs := [' ']) (t := ".r".toList) (by decide) (by simp) (by decide) (by decide)
        (.word (bs := [' ']) (t := "cr".toList) (by decide) (by simp) (by decide) (by decide)
        (.word (bs := [' ']) (t := "2".toList) (by decide) (by simp) (by decide) (by decide)
        (.word (bs := [' ']) (t := "spaces".toList) (by decide) (by simp) (by decide) (by decide)
        (.word (bs := [' ']) (t := "space".toList) (rest := []) (by decide) (by simp) (by decide) (by decide) (.blank (by simp))))))))))
  have a2 : Answers demoTyped.fops "7 foo 8".toList [] [] fun trace => ascii " " ++ [] ++ complaint "foo".toList (ascii "Undefined word") trace := by
    refine .error (toks := ["7".toList]) (more := ["8".toList]) ?_ (.cons (a := []) (by decide) (w7 _) (.nil (by decide))) (.unknown ?_ ?_ ?_)
    · exact .word (bs := []) (t := ['7']) (by simp) (by simp) (by decide) (by decide)
        (.word (bs := [' ']) (t := ['f', 'o', 'o']) (by decide) (by simp) (by decide) (by decide)
        (.word (bs := [' ']) (t := ['8']) (rest := []) (by decide) (by simp) (by decide) (by decide) (.blank (by simp))))
    · intro n hn he
      have h1 : (rtfWords.all fun n => (utf8 "foo".toList).map lowerByte != (ascii n).map lowerByte) = true := by decide +kernel
      have := List.all_eq_true.1 h1 n hn
      rw [(sameName_iff _ _).1 he] at this
      simp at this
    · intro v hv
      have := (integerValue_iff 10 _ v).2 hv
      rw [show integerValue 10 (utf8 "foo".toList) = none by decide] at this; cases this
    · intro v hv
      have := (floatValue_iff _ _ v).2 hv
      have e : (floatValue demoTyped.fops (utf8 "foo".toList)).toOption = none := by decide
      rw [this] at e; cases e
  have a3 : Answers demoTyped.fops "5 0 /".toList [] [] fun trace => ascii " " ++ [] ++ complaint "/".toList (ascii "Division by zero") trace := by
    refine .error (toks := ["5".toList, "0".toList]) (more := []) ?_ (.cons (a := []) (by decide) (w5 _) (.cons (a := []) (by decide) (w0 _) (.nil (by decide))))
      (.divide (name := "/") (by simp [divisions]; rfl) ((sameName_iff _ _).2 rfl) rfl)
    exact .word (bs := []) (t := ['5']) (by simp) (by simp) (by decide) (by decide)
        (.word (bs := [' ']) (t := ['0']) (by decide) (by simp) (by decide) (by decide)
        (.word (bs := [' ']) (t := ['/']) (rest := []) (by decide) (by simp) (by decide) (by decide) (.blank (by simp))))
  refine ⟨_, .ok (toks := []) (.blank (by simp [argsText])) (.nil (by decide))
    (.line (by decide) a1 (.line (by decide) b2 (.line (by decide) a2 (.line (by decide) a3 .done)))), fun tr => ?_⟩
  simp only [complaint, lineOf, if_true, demoPrinted]
  have e1 : ascii (toString (3 : Cell).toInt) = ascii "3" := by decide
  have e2 : ascii " 3  ok" = ascii " " ++ (ascii "3" ++ [32]) ++ ascii " ok" := by decide
  have e3 : ascii " foo Undefined word, backtrace: " = ascii " " ++ (utf8 "foo".toList ++ ascii " " ++ ascii "Undefined word" ++ ascii ", backtrace: ") := by decide
  have e4 : ascii " / Division by zero, backtrace: " = ascii " " ++ (utf8 "/".toList ++ ascii " " ++ ascii "Division by zero" ++ ascii ", backtrace: ") := by decide
  have e5 : ascii " *  7" = ascii " " ++ ascii "*  7" := by decide
  have e6 : ascii "    ok" = ascii "   " ++ ascii " ok" := by decide
  rw [e1, e2, e3, e4, e5, e6, hD]
  simp only [List.append_assoc, List.nil_append, List.append_nil]

/-- Non-vacuity of C69_program and C69_conversation, and so of C69_receive, C69_end, C69_find, C69_args and C69_bad_args, which
they rest on: four lines, two of which come to an error. -/
example : ∃ N v tr, (∀ fuel, N ≤ fuel → rtfMain demoTyped 3 fuel 4096 65536 [] = .ok v) ∧ v.stdout = greeting ++ demoPrinted tr := by
  obtain ⟨out, h1, h2⟩ := demo_dialogue
  obtain ⟨N, v, tr, g1, g2, -⟩ := C69_program demoTyped 0 4096 65536 [] (by decide) (by decide) (by decide) (by decide) (by decide) h1
    ⟨fun i t hi => by show (match demoLines[0 + i]? with | some t => Answer.line t | none => .eof) = _; rw [Nat.zero_add, hi], rfl⟩
  exact ⟨N, v, tr, g1, by rw [g2, h2]; rfl⟩

end Verif

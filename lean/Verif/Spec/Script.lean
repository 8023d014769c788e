import Verif.Spec.Source

/-!
# Source text of definitions, with all that core.fth makes use of

Comments, words that take text or a name from the source, and immediate colon definitions that do nothing.
-/

namespace Verif.Spec
open Verif

/-- What an immediate word in a definition takes from the text after it, and the items that amount to what
it compiles. -/
inductive Quoted (s : VM) : Prim → (text : List Char) → List Item → (rest : List Char) → Prop
  | paren {text taken rest : List Char} {found : Bool} : (data s).length < capacity →
      Delimited 41 text taken rest found → Quoted s (.core .paren) text [] rest
  | backslash {text taken rest : List Char} {found : Bool} : (data s).length < capacity →
      Delimited 10 text taken rest found → Quoted s (.core .backslash) text [] rest
  | char {text tok rest : List Char} {ch : Char} : (data s).length < capacity → Reads text (ch :: tok) rest →
      Quoted s (.core .bracketChar) text [.lit (BitVec.ofNat 64 ch.toNat)] rest
  | tick {text tok rest : List Char} {i : Nat} : Reads text tok rest → Newest s (utf8 tok) (some i) →
      Quoted s (.core .bracketTick) text [.lit (toCell i)] rest
  | postpone {text tok rest : List Char} {i : Nat} : Reads text tok rest → Newest s (utf8 tok) (some i) →
      Plain s.wl s.refs.postponeRt →
      Quoted s (.core .postpone) text [.lit (toCell i), .word s.refs.postponeRt] rest
  | does {text : List Char} : (data s).length < capacity → Plain s.wl s.refs.doesRt → Plain s.wl s.refs.exit →
      Quoted s (.core .does) text [.word s.refs.doesRt, .word s.refs.exit] text
  | sQuote {cs text : List Char} {b : Char} : Blank b → '"' ∉ cs →
      Quoted s (.out .sQuote) (b :: (cs ++ '"' :: text)) [.str (utf8 cs)] text
  | dotQuote {cs text : List Char} {b : Char} : Blank b → '"' ∉ cs → Plain s.wl s.refs.type →
      Quoted s (.out .dotQuote) (b :: (cs ++ '"' :: text)) [.str (utf8 cs), .word s.refs.type] text

/-- `text` spells the items and then `rest`, in a definition. -/
inductive Prose (f : FloatOps) (s : VM) : (text : List Char) → List Item → (rest : List Char) → Prop
  | done {text : List Char} : Prose f s text [] text
  | token {t text mid rest : List Char} {i : Item} {l : List Item} : Reads text t mid → Spells f s t i →
      Prose f s mid l rest → Prose f s text (i :: l) rest
  | quoted {t text mid mid' rest : List Char} {i : Nat} {w : Word} {l m : List Item} : Reads text t mid →
      Newest s (utf8 t) (some i) → s.wl.words[i]? = some w → w.isImmediate = true → Quoted s w.action mid l mid' →
      Prose f s mid' m rest → Prose f s text (l ++ m) rest
  /-- an immediate colon definition with nothing in it -/
  | quiet {t text mid rest : List Char} {i : Nat} {w e : Word} {l : List Item} : Reads text t mid →
      Newest s (utf8 t) (some i) → s.wl.words[i]? = some w → w.isImmediate = true → w.action = .core .nest →
      CellIs s.ds w.dfa s.refs.exit → s.ds.start ≤ w.dfa → w.dfa + 8 ≤ s.ds.here →
      s.wl.words[s.refs.exit]? = some e → e.action = .core .exit → (ret s).length < capacity →
      Prose f s mid l rest → Prose f s text l rest

end Verif.Spec

import Verif.Model.Boot

/-!
# What a word may change

`Change k s s'` says that the machine differs in one respect, named by `k`. `Changes K s s'` is any
number of such changes, all of kinds in `K`. `footprint p` lists the kinds of change the word `p`
makes itself, and `calls p` says whether it may hand control to another word (by `execute`, by an
immediate word, or by the error handler).
-/

namespace Verif.Spec
open Verif

/-- The respects in which a machine can change. -/
inductive Kind where
  | dataStack | returnStack | controlStack | floatStack
  | mode | ip | wp | abortedWp | sourceIndex | sourceId
  | inputText | inputSlot | fileOpen | fileUse | fileClose | sourceOpen | sourceClose | sourceRead
  | raise | clear | handler | token | output | holdBuffer | refs | labelSets | labelTable
  | host | hostCall | standardOut | standardError
  | memWrite | memAppend | memHere
  | wordAdd | wordLast | wordTime | wordForget | savedBuckets
  | awake | switch | activate | clock
  deriving DecidableEq, Repr

/-- What words made by programs do: colon definitions, `create`, `constant`, `marker`, `does>`,
`fconstant`. -/
def definedActions : List Prim :=
  [.core .nest, .core .pVar, .core .pConst, .core .unmark, .core .doesAction, .flt .pFconst]

/-- The two descriptions of a word agree up to its flags, and up to what it does if it now does what
a defined word does. -/
structure SameEntry (w w' : Word) : Prop where
  link : w'.link = w.link
  hash : w'.hash = w.hash
  nfa : w'.nfa = w.nfa
  dfa : w'.dfa = w.dfa
  compSem : w'.compSem = w.compSem
  minTime : w'.minTime = w.minTime
  maxTime : w'.maxTime = w.maxTime
  action : w'.action = w.action ∨ w'.action ∈ definedActions

/-- The source `id` has an open file and a line buffer. -/
def OpenSource (t : Task) (id : Cell) : Prop :=
  0 < id.toInt ∧ (∃ src, t.sources[id.toNat - 1]? = some (some src)) ∧
    (∃ l, t.lines[id.toNat - 1]? = some (some l))

/-- The task after `activate`: awake, with an empty return stack, no source, no text left, not
compiling, going on at `ip`. -/
def activated (t : Task) (ip : Nat) : Task :=
  { t with
    awake := true, r := t.r.reset, inbuf := t.inbuf.map fun _ => []
    st := { t.st with isCompiling := false, ip := ip, abortedWp := 0, sourceIndex := 0,
                      sourceId := 0 } }

/-- An error is raised: the data, float and control stacks of the running task are emptied, the error
is recorded, and so is the word that was running. -/
def raised (s : VM) (e : Exn) : VM :=
  { s.setTask { s.task with s := s.task.s.reset, f := s.task.f.reset, c := s.task.c.reset,
                            st := { s.task.st with abortedWp := s.task.st.wp } } with
    lastError := some e }

/-- The exception has one of the numbers that Forth-2012 reserves (table 9.1). -/
def Reserved (e : Exn) : Prop := -58 ≤ e.code ∧ e.code ≤ -1

instance (e : Exn) : Decidable (Reserved e) := inferInstanceAs (Decidable (_ ∧ _))

/-- The word that `s"` compiles is compiled in the way `leave` is. No machine with the standard words is
like that. -/
def Irregular (s : VM) : Prop := ∃ w, s.wl.words[s.refs.sQuote]? = some w ∧ w.compSem = .leave

/-- One change of kind `k`. -/
def Change : Kind → VM → VM → Prop
  | .dataStack, s, s' => ∃ x, s' = s.setTask { s.task with s := x }
  | .returnStack, s, s' => ∃ x, s' = s.setTask { s.task with r := x }
  | .controlStack, s, s' => ∃ x, s' = s.setTask { s.task with c := x }
  | .floatStack, s, s' => ∃ x, s' = s.setTask { s.task with f := x }
  | .mode, s, s' => ∃ b, s' = s.setTask { s.task with st := { s.task.st with isCompiling := b } }
  | .ip, s, s' => ∃ n, s' = s.setTask { s.task with st := { s.task.st with ip := n } }
  | .wp, s, s' => ∃ n, s' = s.setTask { s.task with st := { s.task.st with wp := n } }
  | .abortedWp, s, s' => ∃ n, s' = s.setTask { s.task with st := { s.task.st with abortedWp := n } }
  | .sourceIndex, s, s' =>
      ∃ n, s' = s.setTask { s.task with st := { s.task.st with sourceIndex := n } }
  | .sourceId, s, s' => ∃ id, (id = 0 ∨ OpenSource s.task id) ∧
      s' = s.setTask { s.task with st := { s.task.st with sourceId := id } }
  | .inputText, s, s' => ∃ b b' t, inputBuffer s.task = .ok (some b) ∧
      setInputBuffer s.task (some b') = .ok t ∧ s' = s.setTask t
  | .inputSlot, s, s' => ∃ b' t, (b' = none → Irregular s) ∧
      setInputBuffer s.task b' = .ok t ∧ s' = s.setTask t
  | .fileOpen, s, s' =>
      ∃ h x, ((∃ p, s.task.files[p]? = some none ∧ x = s.task.files.set p (some h)) ∨
        x = s.task.files ++ [some h]) ∧ s' = s.setTask { s.task with files := x }
  | .fileUse, s, s' => ∃ p h n, s.task.files[p]? = some (some h) ∧
      s' = s.setTask { s.task with files := s.task.files.set p (some { h with pos := n }) }
  | .fileClose, s, s' => ∃ p h, s.task.files[p]? = some (some h) ∧
      s' = s.setTask { s.task with files := s.task.files.set p none }
  | .sourceOpen, s, s' =>
      ∃ src, (∃ p, s.task.sources[p]? = some none ∧
          s' = s.setTask { s.task with sources := s.task.sources.set p (some src) }) ∨
        s' = s.setTask { s.task with
          sources := s.task.sources ++ [some src], lines := s.task.lines ++ [some []] }
  | .sourceClose, s, s' => ∃ id, s.task.st.sourceId ≠ id ∧ 0 < id.toInt ∧
      s' = s.setTask { s.task with sources := s.task.sources.set (id.toNat - 1) none }
  | .sourceRead, s, s' =>
      ∃ i src l, (∃ old, s.task.sources[i]? = some (some old)) ∧
        (∃ old, s.task.lines[i]? = some (some old)) ∧
        s' = s.setTask { s.task with
          sources := s.task.sources.set i (some src), lines := s.task.lines.set i (some l) }
  | .raise, s, s' => ∃ e, Reserved e ∧ s' = raised s e
  | .clear, s, s' => s' = { s with lastError := none }
  | .handler, s, s' => ∃ x, s' = { s with handler := x }
  | .token, s, s' => ∃ x, s' = { s with tkn := some x }
  | .output, s, s' => ∃ x, s' = { s with outbuf := s.outbuf.map (· ++ x) }
  | .holdBuffer, s, s' => ∃ x, s' = { s with hldbuf := x }
  | .refs, s, s' => ∃ x, s' = { s with refs := x }
  | .labelSets, s, s' => ∃ x y, s' = { s with forward := x, resolved := y }
  | .labelTable, s, s' => ∃ x, x.length = s.labels.length ∧ s' = { s with labels := x }
  | .host, s, s' => ∃ x, s' = { s with host := x }
  | .hostCall, s, s' => ∃ n, s' = { s with host := { s.host with calls := n } }
  | .standardOut, s, s' => ∃ b, s.outbuf = some b ∧
      s' = { s with stdout := s.stdout ++ b ++ [10], outbuf := some [] }
  | .standardError, s, s' => ∃ b, s.outbuf = some b ∧
      s' = { s with stderr := s.stderr ++ b ++ [10], outbuf := some [] }
  | .memWrite, s, s' => ∃ a n b, s.ds.start ≤ a ∧ a + n ≤ s.ds.start + s.ds.cap ∧
      (∀ x, x < a ∨ a + n ≤ x → b x = s.ds.bytes x) ∧ s' = { s with ds := { s.ds with bytes := b } }
  | .memAppend, s, s' => ∃ n b, s.ds.len ≤ n ∧ n ≤ s.ds.cap ∧
      (∀ x, x < s.ds.start + s.ds.len ∨ s.ds.start + n ≤ x → b x = s.ds.bytes x) ∧
      s' = { s with ds := { s.ds with bytes := b, len := n } }
  | .memHere, s, s' => ∃ n, n ≤ s.ds.cap ∧ s' = { s with ds := { s.ds with len := n } }
  | .wordAdd, s, s' => ∃ name w, (w.action ∈ definedActions ∧ w.compSem = .word) ∧ s' = { s with wl := s.wl.push name w }
  | .wordLast, s, s' => ∃ w w', s.wl.words[s.wl.last]? = some w ∧ SameEntry w w' ∧
      s' = { s with wl := { s.wl with words := s.wl.words.set s.wl.last w' } }
  | .wordTime, s, s' => ∃ f : Word → Word,
      (∀ w, ∃ a b, f w = { w with minTime := a, maxTime := b }) ∧
      ∃ p : Nat → Bool, s' = { s with wl := { s.wl with
        words := s.wl.words.mapIdx fun i w => if p i then f w else w } }
  | .wordForget, s, s' => ∃ n b l, s' = { s with wl := { s.wl with
      words := s.wl.words.take n, buckets := b, last := l } }
  | .savedBuckets, s, s' => s' = { s with wl := { s.wl with tempBuckets := s.wl.buckets } }
  | .awake, s, s' => ∃ k b, s' = s.setTaskAt k { s.tasks k with awake := b }
  | .switch, s, s' => ∃ k, (s.tasks k).awake = true ∧ s' = { s with cur := k }
  | .activate, s, s' => ∃ k ip,
      s' = { s.setTaskAt k (activated (s.tasks k) ip) with lastError := none }
  | .clock, s, s' => ∃ n, s' = { s with now := n }

/-- Any number of changes of kinds in `K`. -/
inductive Changes (K : List Kind) : VM → VM → Prop
  | refl (s : VM) : Changes K s s
  | tail {s t u : VM} {k : Kind} : Changes K s t → k ∈ K → Change k t u → Changes K s u

/-- The data space ends below 2^63 and `here` is inside it. -/
def InSpace (s : VM) : Prop := s.ds.start + s.ds.cap < 2 ^ 63 ∧ s.ds.len ≤ s.ds.cap

/-- What words do that may raise an error: they raise it, and use the stacks that are emptied then. -/
def abortKinds : List Kind := [.raise, .dataStack, .floatStack, .controlStack]

/-- The kinds of change the words of src/core.rs make. -/
def coreFootprint : CorePrim → List Kind
  | .noop => []
  | .exit => [.returnStack, .ip]
  | .lit => [.dataStack, .ip]
  | .flit => [.floatStack, .ip]
  | .sQuoteRt => [.dataStack, .ip]
  | .branch => [.ip]
  | .zeroBranch => [.dataStack, .ip]
  | .doRt | .qdoRt => [.dataStack, .returnStack, .ip]
  | .loopRt => [.returnStack, .ip]
  | .plusLoopRt => [.dataStack, .returnStack, .ip]
  | .unloop => [.returnStack]
  | .leave => .returnStack :: .ip :: abortKinds
  | .i | .j => [.dataStack]
  | .toR | .rFrom | .twoToR | .twoRFrom => [.dataStack, .returnStack]
  | .rFetch | .twoRFetch => [.dataStack]
  | .compileComma => [.dataStack, .memAppend]
  | .postponeRt => .memAppend :: abortKinds
  | .doesRt => [.memAppend, .wordLast]
  | .execute => [.dataStack]
  | .dup | .drop | .swap | .over | .nip | .depth => [.dataStack]
  | .checkStacks => abortKinds
  | .zeroLess | .equals | .lessThan | .invert | .and | .or | .xor | .lshift | .rshift
  | .onePlus | .oneMinus | .minus | .plus | .star => [.dataStack]
  | .slashMod => abortKinds
  | .cellPlus | .cells => [.dataStack]
  | .fetch => abortKinds
  | .store => .memWrite :: abortKinds
  | .charPlus | .here => [.dataStack]
  | .allot => [.dataStack, .memHere]
  | .aligned => [.dataStack]
  | .align => [.memAppend]
  | .cFetch => abortKinds
  | .cStore | .move => .memWrite :: abortKinds
  | .base => [.dataStack]
  | .immediate | .compileOnly => [.wordLast]
  | .paren | .backslash => [.dataStack, .token, .sourceIndex]
  | .leftBracket => [.mode]
  | .bracketTick => .memAppend :: .token :: .sourceIndex :: abortKinds
  | .bracketChar => .memAppend :: .token :: .sourceIndex :: abortKinds
  | .semicolon => .memAppend :: .wordLast :: .mode :: abortKinds
  | .immIf => [.memAppend, .controlStack]
  | .immElse | .immThen => .memAppend :: .memWrite :: abortKinds
  | .immCase => [.controlStack]
  | .immOf => .memAppend :: abortKinds
  | .immEndof | .immEndcase => .memAppend :: .memWrite :: abortKinds
  | .immBegin => [.controlStack]
  | .immWhile => [.memAppend, .controlStack]
  | .immRepeat => .memAppend :: .memWrite :: abortKinds
  | .immUntil | .immAgain => .memAppend :: abortKinds
  | .clearLabels => [.labelSets]
  | .immLabel => .memWrite :: .labelSets :: .labelTable :: abortKinds
  | .immGoto | .immCall => .memAppend :: .labelSets :: .labelTable :: abortKinds
  | .immRecurse => [.memAppend]
  | .immDo | .immQdo => [.memAppend, .controlStack]
  | .immLoop | .immPlusLoop => .memAppend :: .memWrite :: abortKinds
  | .postpone => .memAppend :: .token :: .sourceIndex :: abortKinds
  | .does => [.dataStack, .memAppend]
  | .pTrue | .pFalse | .zeroEquals | .zeroGreater | .zeroNotEquals | .greaterThan | .notEquals
  | .within | .rot | .minusRot | .pick | .twoDup | .twoDrop | .twoSwap | .twoOver => [.dataStack]
  | .slash | .mod => abortKinds
  | .abs | .negate => [.dataStack]
  | .parseWord => [.token, .sourceIndex]
  | .char => .token :: .sourceIndex :: abortKinds
  | .skip => [.dataStack, .sourceIndex]
  | .parse => [.dataStack, .token, .sourceIndex]
  | .colon => .token :: .sourceIndex :: .output :: .memAppend :: .wordAdd :: .wordLast :: .mode ::
      abortKinds
  | .constant | .create => .token :: .sourceIndex :: .output :: .memAppend :: .wordAdd :: abortKinds
  | .tick => .token :: .sourceIndex :: abortKinds
  | .toBody | .toName => abortKinds
  | .rightBracket => [.mode]
  | .comma => [.dataStack, .memAppend]
  | .marker => .savedBuckets :: .token :: .sourceIndex :: .output :: .memAppend :: .wordAdd ::
      abortKinds
  | .handlerStore => [.dataStack, .handler]
  | .error => [.dataStack]
  | .dotError => [.output]
  | .clearError => [.clear]
  | .clearStacks => [.dataStack, .floatStack, .controlStack]
  | .reset => [.returnStack, .sourceId, .inputText, .sourceIndex, .mode, .abortedWp, .clear]
  | .abort => abortKinds
  | .compiling | .tokenEmpty => [.dataStack]
  | .dotToken => [.output]
  | .storeToken => .memWrite :: .token :: abortKinds
  | .compileToken | .interpretToken => .memAppend :: .token :: .clear :: abortKinds
  | .sourceId => [.dataStack]
  | .setSourceId => .sourceId :: abortKinds
  | .sourceIdx => [.dataStack]
  | .setSourceIdx => [.dataStack, .sourceIndex]
  | .bye => [.ip]
  | .pause => [.switch]
  | .activate => .activate :: .returnStack :: .ip :: abortKinds
  | .me => [.dataStack]
  | .suspend | .resume => .awake :: abortKinds
  | .nest => [.returnStack, .ip]
  | .pVar | .pConst => [.dataStack]
  | .unmark => [.wordForget, .memHere]
  | .doesAction => [.dataStack, .returnStack, .ip]

/-- The kinds of change the words of src/output.rs make. -/
def outFootprint : OutPrim → List Kind
  | .emit => [.dataStack, .output]
  | .type => .output :: abortKinds
  | .sQuote | .dotQuote => .inputSlot :: .memAppend :: .sourceIndex :: abortKinds
  | .dotParen => [.dataStack, .token, .sourceIndex, .output]
  | .dotR => .holdBuffer :: .output :: abortKinds
  | .fdotR => [.dataStack, .floatStack, .holdBuffer, .output]
  | .flushOutput => [.standardOut]

/-- The kinds of change the words of src/tools.rs make. -/
def toolFootprint : ToolPrim → List Kind
  | .words | .dotBacktrace | .dotS | .dotMemory | .dotXtime | .dotInput => [.output]
  | .dotWord => [.dataStack, .output]
  | .setXtime => [.dataStack, .wordTime]
  | .clearXtime => [.wordTime]
  | .flushToErr => [.standardError]

/-- The kinds of change the words of src/float.rs make. -/
def floatFootprint : FloatPrim → List Kind
  | .fconstant => .token :: .sourceIndex :: .output :: .memAppend :: .wordAdd :: abortKinds
  | .floatPlus | .floats | .faligned => [.dataStack]
  | .falign => [.memAppend]
  | .fstore => .memWrite :: abortKinds
  | .ffetch => abortKinds
  | .fpick | .sToF | .fToS | .fproximate | .fZeroLess | .fZeroEquals | .fLess =>
      [.dataStack, .floatStack]
  | _ => [.floatStack]

/-- The kinds of change the words of src/file_access.rs make. -/
def fileFootprint : FilePrim → List Kind
  | .fileSize | .filePosition => [.dataStack, .hostCall]
  | .closeFile => [.dataStack, .fileClose]
  | .deleteFile | .resizeFile => [.dataStack, .host, .hostCall]
  | .createFile => [.dataStack, .host, .hostCall, .fileOpen]
  | .openFile => [.dataStack, .hostCall, .fileOpen]
  | .writeFile => [.dataStack, .host, .hostCall, .fileUse]
  | .repositionFile => [.dataStack, .hostCall, .fileUse]
  | .readFile => [.dataStack, .hostCall, .fileUse, .memWrite]

/-- The kinds of change the words of src/loader.rs make. -/
def loadFootprint : LoadPrim → List Kind
  | .openSource => .fileClose :: .sourceOpen :: abortKinds
  | .closeSource => .sourceClose :: abortKinds
  | .dotSourcePath | .dotSourceLine => .output :: abortKinds
  | .loadLine => .hostCall :: .sourceRead :: abortKinds

/-- The kinds of change a word makes itself. -/
def footprint : Prim → List Kind
  | .core p => coreFootprint p
  | .out p => outFootprint p
  | .tool p => toolFootprint p
  | .env _ => [.dataStack]
  | .flt p => floatFootprint p
  | .unit _ => [.floatStack]
  | .file p => fileFootprint p
  | .load p => loadFootprint p
  | .receive => [.hostCall, .inputText, .sourceIndex, .ip, .output]

/-- All words of the machine, and all words it can make, change nothing but `K`. -/
def Able (K : List Kind) (s : VM) : Prop :=
  (.wordAdd ∈ K ∨ .wordLast ∈ K → ∀ p, p ∈ definedActions → ∀ k, k ∈ footprint p → k ∈ K) ∧
    ∀ w, w ∈ s.wl.words → ∀ k, k ∈ footprint w.action → k ∈ K

/-- A condition on machines that changes of kinds in `K` preserve. -/
structure Inv (K : List Kind) where
  holds : VM → Prop
  keep : ∀ k s t, k ∈ K → Change k s t → holds s → holds t

/-- The data space is sound and the condition holds. -/
def Fit {K : List Kind} (A : Inv K) (s : VM) : Prop := InSpace s ∧ A.holds s

/-- Running `m` on a machine fit for it makes only changes of kinds in `K`. -/
def Does {α : Type} {K : List Kind} (A : Inv K) (m : M α) : Prop :=
  ∀ s a s', Fit A s → m s = .ok (a, s') → Changes K s s'

/-- Run the error handler. -/
def runHandler (c : Ctx) : M Unit := fun s => c.ex s.handler s

/-- Whether a word may raise an error, and so run the handler. -/
def raises (p : Prim) : Bool :=
  (footprint p).contains .raise

/-- Whether a word may run any other word. -/
def executes (p : Prim) : Bool :=
  p == .core .execute || p == .core .compileToken || p == .core .interpretToken

end Verif.Spec

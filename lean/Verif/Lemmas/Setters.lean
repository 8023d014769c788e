import Verif.Lemmas.Monad
import Verif.Model.Boot

/-!
# Field setters of the machine, and the tactic `vm_simp` for symbolic execution

Generated: one setter per shared field, its projections, and the commutation lemmas that bring a
sequence of updates to a normal form (`setTask` first, then the fields in a fixed order).
-/

namespace Verif
namespace VM

/-- Replace the field `lastError`. -/
def setErr (s : VM) (x : Option Exn) : VM := { s with lastError := x }

/-- Replace the field `handler`. -/
def setHandler (s : VM) (x : Nat) : VM := { s with handler := x }

/-- Replace the field `wl`. -/
def setWl (s : VM) (x : Wordlist) : VM := { s with wl := x }

/-- Replace the field `ds`. -/
def setDs (s : VM) (x : DataSpace) : VM := { s with ds := x }

/-- Replace the field `tkn`. -/
def setTkn (s : VM) (x : Option (List Char)) : VM := { s with tkn := x }

/-- Replace the field `outbuf`. -/
def setOutbuf (s : VM) (x : Option (List Byte)) : VM := { s with outbuf := x }

/-- Replace the field `hldbuf`. -/
def setHldbuf (s : VM) (x : List Byte) : VM := { s with hldbuf := x }

/-- Replace the field `refs`. -/
def setRefs (s : VM) (x : Refs) : VM := { s with refs := x }

/-- Replace the field `now`. -/
def setNow (s : VM) (x : Nat) : VM := { s with now := x }

/-- Replace the field `forward`. -/
def setForward (s : VM) (x : List Nat) : VM := { s with forward := x }

/-- Replace the field `resolved`. -/
def setResolved (s : VM) (x : List Nat) : VM := { s with resolved := x }

/-- Replace the field `labels`. -/
def setLabels (s : VM) (x : List Nat) : VM := { s with labels := x }

/-- Replace the field `host`. -/
def setHost (s : VM) (x : Host) : VM := { s with host := x }

/-- Replace the field `stdout`. -/
def setStdout (s : VM) (x : List Byte) : VM := { s with stdout := x }

/-- Replace the field `stderr`. -/
def setStderr (s : VM) (x : List Byte) : VM := { s with stderr := x }

theorem lastError_setErr (s : VM) (x : Option Exn) : (s.setErr x).lastError = x := rfl
theorem handler_setErr (s : VM) (x : Option Exn) : (s.setErr x).handler = s.handler := rfl
theorem wl_setErr (s : VM) (x : Option Exn) : (s.setErr x).wl = s.wl := rfl
theorem ds_setErr (s : VM) (x : Option Exn) : (s.setErr x).ds = s.ds := rfl
theorem tkn_setErr (s : VM) (x : Option Exn) : (s.setErr x).tkn = s.tkn := rfl
theorem outbuf_setErr (s : VM) (x : Option Exn) : (s.setErr x).outbuf = s.outbuf := rfl
theorem hldbuf_setErr (s : VM) (x : Option Exn) : (s.setErr x).hldbuf = s.hldbuf := rfl
theorem refs_setErr (s : VM) (x : Option Exn) : (s.setErr x).refs = s.refs := rfl
theorem now_setErr (s : VM) (x : Option Exn) : (s.setErr x).now = s.now := rfl
theorem forward_setErr (s : VM) (x : Option Exn) : (s.setErr x).forward = s.forward := rfl
theorem resolved_setErr (s : VM) (x : Option Exn) : (s.setErr x).resolved = s.resolved := rfl
theorem labels_setErr (s : VM) (x : Option Exn) : (s.setErr x).labels = s.labels := rfl
theorem host_setErr (s : VM) (x : Option Exn) : (s.setErr x).host = s.host := rfl
theorem stdout_setErr (s : VM) (x : Option Exn) : (s.setErr x).stdout = s.stdout := rfl
theorem stderr_setErr (s : VM) (x : Option Exn) : (s.setErr x).stderr = s.stderr := rfl
theorem cur_setErr (s : VM) (x : Option Exn) : (s.setErr x).cur = s.cur := rfl
theorem tasks_setErr (s : VM) (x : Option Exn) : (s.setErr x).tasks = s.tasks := rfl
theorem task_setErr (s : VM) (x : Option Exn) : (s.setErr x).task = s.task := rfl
theorem setErr_setErr (s : VM) (x y : Option Exn) : (s.setErr x).setErr y = s.setErr y := rfl
theorem setErr_self (s : VM) : s.setErr s.lastError = s := rfl
theorem setErr_setTask (s : VM) (x : Option Exn) (u : Task) : (s.setErr x).setTask u = (s.setTask u).setErr x := rfl
theorem setErr_setTaskAt (s : VM) (x : Option Exn) (k : Fin 5) (u : Task) : (s.setErr x).setTaskAt k u = (s.setTaskAt k u).setErr x := rfl

theorem lastError_setHandler (s : VM) (x : Nat) : (s.setHandler x).lastError = s.lastError := rfl
theorem handler_setHandler (s : VM) (x : Nat) : (s.setHandler x).handler = x := rfl
theorem wl_setHandler (s : VM) (x : Nat) : (s.setHandler x).wl = s.wl := rfl
theorem ds_setHandler (s : VM) (x : Nat) : (s.setHandler x).ds = s.ds := rfl
theorem tkn_setHandler (s : VM) (x : Nat) : (s.setHandler x).tkn = s.tkn := rfl
theorem outbuf_setHandler (s : VM) (x : Nat) : (s.setHandler x).outbuf = s.outbuf := rfl
theorem hldbuf_setHandler (s : VM) (x : Nat) : (s.setHandler x).hldbuf = s.hldbuf := rfl
theorem refs_setHandler (s : VM) (x : Nat) : (s.setHandler x).refs = s.refs := rfl
theorem now_setHandler (s : VM) (x : Nat) : (s.setHandler x).now = s.now := rfl
theorem forward_setHandler (s : VM) (x : Nat) : (s.setHandler x).forward = s.forward := rfl
theorem resolved_setHandler (s : VM) (x : Nat) : (s.setHandler x).resolved = s.resolved := rfl
theorem labels_setHandler (s : VM) (x : Nat) : (s.setHandler x).labels = s.labels := rfl
theorem host_setHandler (s : VM) (x : Nat) : (s.setHandler x).host = s.host := rfl
theorem stdout_setHandler (s : VM) (x : Nat) : (s.setHandler x).stdout = s.stdout := rfl
theorem stderr_setHandler (s : VM) (x : Nat) : (s.setHandler x).stderr = s.stderr := rfl
theorem cur_setHandler (s : VM) (x : Nat) : (s.setHandler x).cur = s.cur := rfl
theorem tasks_setHandler (s : VM) (x : Nat) : (s.setHandler x).tasks = s.tasks := rfl
theorem task_setHandler (s : VM) (x : Nat) : (s.setHandler x).task = s.task := rfl
theorem setHandler_setHandler (s : VM) (x y : Nat) : (s.setHandler x).setHandler y = s.setHandler y := rfl
theorem setHandler_self (s : VM) : s.setHandler s.handler = s := rfl
theorem setHandler_setTask (s : VM) (x : Nat) (u : Task) : (s.setHandler x).setTask u = (s.setTask u).setHandler x := rfl
theorem setHandler_setTaskAt (s : VM) (x : Nat) (k : Fin 5) (u : Task) : (s.setHandler x).setTaskAt k u = (s.setTaskAt k u).setHandler x := rfl
theorem setHandler_setErr (s : VM) (x : Nat) (y : Option Exn) : (s.setHandler x).setErr y = (s.setErr y).setHandler x := rfl

theorem lastError_setWl (s : VM) (x : Wordlist) : (s.setWl x).lastError = s.lastError := rfl
theorem handler_setWl (s : VM) (x : Wordlist) : (s.setWl x).handler = s.handler := rfl
theorem wl_setWl (s : VM) (x : Wordlist) : (s.setWl x).wl = x := rfl
theorem ds_setWl (s : VM) (x : Wordlist) : (s.setWl x).ds = s.ds := rfl
theorem tkn_setWl (s : VM) (x : Wordlist) : (s.setWl x).tkn = s.tkn := rfl
theorem outbuf_setWl (s : VM) (x : Wordlist) : (s.setWl x).outbuf = s.outbuf := rfl
theorem hldbuf_setWl (s : VM) (x : Wordlist) : (s.setWl x).hldbuf = s.hldbuf := rfl
theorem refs_setWl (s : VM) (x : Wordlist) : (s.setWl x).refs = s.refs := rfl
theorem now_setWl (s : VM) (x : Wordlist) : (s.setWl x).now = s.now := rfl
theorem forward_setWl (s : VM) (x : Wordlist) : (s.setWl x).forward = s.forward := rfl
theorem resolved_setWl (s : VM) (x : Wordlist) : (s.setWl x).resolved = s.resolved := rfl
theorem labels_setWl (s : VM) (x : Wordlist) : (s.setWl x).labels = s.labels := rfl
theorem host_setWl (s : VM) (x : Wordlist) : (s.setWl x).host = s.host := rfl
theorem stdout_setWl (s : VM) (x : Wordlist) : (s.setWl x).stdout = s.stdout := rfl
theorem stderr_setWl (s : VM) (x : Wordlist) : (s.setWl x).stderr = s.stderr := rfl
theorem cur_setWl (s : VM) (x : Wordlist) : (s.setWl x).cur = s.cur := rfl
theorem tasks_setWl (s : VM) (x : Wordlist) : (s.setWl x).tasks = s.tasks := rfl
theorem task_setWl (s : VM) (x : Wordlist) : (s.setWl x).task = s.task := rfl
theorem setWl_setWl (s : VM) (x y : Wordlist) : (s.setWl x).setWl y = s.setWl y := rfl
theorem setWl_self (s : VM) : s.setWl s.wl = s := rfl
theorem setWl_setTask (s : VM) (x : Wordlist) (u : Task) : (s.setWl x).setTask u = (s.setTask u).setWl x := rfl
theorem setWl_setTaskAt (s : VM) (x : Wordlist) (k : Fin 5) (u : Task) : (s.setWl x).setTaskAt k u = (s.setTaskAt k u).setWl x := rfl
theorem setWl_setErr (s : VM) (x : Wordlist) (y : Option Exn) : (s.setWl x).setErr y = (s.setErr y).setWl x := rfl
theorem setWl_setHandler (s : VM) (x : Wordlist) (y : Nat) : (s.setWl x).setHandler y = (s.setHandler y).setWl x := rfl

theorem lastError_setDs (s : VM) (x : DataSpace) : (s.setDs x).lastError = s.lastError := rfl
theorem handler_setDs (s : VM) (x : DataSpace) : (s.setDs x).handler = s.handler := rfl
theorem wl_setDs (s : VM) (x : DataSpace) : (s.setDs x).wl = s.wl := rfl
theorem ds_setDs (s : VM) (x : DataSpace) : (s.setDs x).ds = x := rfl
theorem tkn_setDs (s : VM) (x : DataSpace) : (s.setDs x).tkn = s.tkn := rfl
theorem outbuf_setDs (s : VM) (x : DataSpace) : (s.setDs x).outbuf = s.outbuf := rfl
theorem hldbuf_setDs (s : VM) (x : DataSpace) : (s.setDs x).hldbuf = s.hldbuf := rfl
theorem refs_setDs (s : VM) (x : DataSpace) : (s.setDs x).refs = s.refs := rfl
theorem now_setDs (s : VM) (x : DataSpace) : (s.setDs x).now = s.now := rfl
theorem forward_setDs (s : VM) (x : DataSpace) : (s.setDs x).forward = s.forward := rfl
theorem resolved_setDs (s : VM) (x : DataSpace) : (s.setDs x).resolved = s.resolved := rfl
theorem labels_setDs (s : VM) (x : DataSpace) : (s.setDs x).labels = s.labels := rfl
theorem host_setDs (s : VM) (x : DataSpace) : (s.setDs x).host = s.host := rfl
theorem stdout_setDs (s : VM) (x : DataSpace) : (s.setDs x).stdout = s.stdout := rfl
theorem stderr_setDs (s : VM) (x : DataSpace) : (s.setDs x).stderr = s.stderr := rfl
theorem cur_setDs (s : VM) (x : DataSpace) : (s.setDs x).cur = s.cur := rfl
theorem tasks_setDs (s : VM) (x : DataSpace) : (s.setDs x).tasks = s.tasks := rfl
theorem task_setDs (s : VM) (x : DataSpace) : (s.setDs x).task = s.task := rfl
theorem setDs_setDs (s : VM) (x y : DataSpace) : (s.setDs x).setDs y = s.setDs y := rfl
theorem setDs_self (s : VM) : s.setDs s.ds = s := rfl
theorem setDs_setTask (s : VM) (x : DataSpace) (u : Task) : (s.setDs x).setTask u = (s.setTask u).setDs x := rfl
theorem setDs_setTaskAt (s : VM) (x : DataSpace) (k : Fin 5) (u : Task) : (s.setDs x).setTaskAt k u = (s.setTaskAt k u).setDs x := rfl
theorem setDs_setErr (s : VM) (x : DataSpace) (y : Option Exn) : (s.setDs x).setErr y = (s.setErr y).setDs x := rfl
theorem setDs_setHandler (s : VM) (x : DataSpace) (y : Nat) : (s.setDs x).setHandler y = (s.setHandler y).setDs x := rfl
theorem setDs_setWl (s : VM) (x : DataSpace) (y : Wordlist) : (s.setDs x).setWl y = (s.setWl y).setDs x := rfl

theorem lastError_setTkn (s : VM) (x : Option (List Char)) : (s.setTkn x).lastError = s.lastError := rfl
theorem handler_setTkn (s : VM) (x : Option (List Char)) : (s.setTkn x).handler = s.handler := rfl
theorem wl_setTkn (s : VM) (x : Option (List Char)) : (s.setTkn x).wl = s.wl := rfl
theorem ds_setTkn (s : VM) (x : Option (List Char)) : (s.setTkn x).ds = s.ds := rfl
theorem tkn_setTkn (s : VM) (x : Option (List Char)) : (s.setTkn x).tkn = x := rfl
theorem outbuf_setTkn (s : VM) (x : Option (List Char)) : (s.setTkn x).outbuf = s.outbuf := rfl
theorem hldbuf_setTkn (s : VM) (x : Option (List Char)) : (s.setTkn x).hldbuf = s.hldbuf := rfl
theorem refs_setTkn (s : VM) (x : Option (List Char)) : (s.setTkn x).refs = s.refs := rfl
theorem now_setTkn (s : VM) (x : Option (List Char)) : (s.setTkn x).now = s.now := rfl
theorem forward_setTkn (s : VM) (x : Option (List Char)) : (s.setTkn x).forward = s.forward := rfl
theorem resolved_setTkn (s : VM) (x : Option (List Char)) : (s.setTkn x).resolved = s.resolved := rfl
theorem labels_setTkn (s : VM) (x : Option (List Char)) : (s.setTkn x).labels = s.labels := rfl
theorem host_setTkn (s : VM) (x : Option (List Char)) : (s.setTkn x).host = s.host := rfl
theorem stdout_setTkn (s : VM) (x : Option (List Char)) : (s.setTkn x).stdout = s.stdout := rfl
theorem stderr_setTkn (s : VM) (x : Option (List Char)) : (s.setTkn x).stderr = s.stderr := rfl
theorem cur_setTkn (s : VM) (x : Option (List Char)) : (s.setTkn x).cur = s.cur := rfl
theorem tasks_setTkn (s : VM) (x : Option (List Char)) : (s.setTkn x).tasks = s.tasks := rfl
theorem task_setTkn (s : VM) (x : Option (List Char)) : (s.setTkn x).task = s.task := rfl
theorem setTkn_setTkn (s : VM) (x y : Option (List Char)) : (s.setTkn x).setTkn y = s.setTkn y := rfl
theorem setTkn_self (s : VM) : s.setTkn s.tkn = s := rfl
theorem setTkn_setTask (s : VM) (x : Option (List Char)) (u : Task) : (s.setTkn x).setTask u = (s.setTask u).setTkn x := rfl
theorem setTkn_setTaskAt (s : VM) (x : Option (List Char)) (k : Fin 5) (u : Task) : (s.setTkn x).setTaskAt k u = (s.setTaskAt k u).setTkn x := rfl
theorem setTkn_setErr (s : VM) (x : Option (List Char)) (y : Option Exn) : (s.setTkn x).setErr y = (s.setErr y).setTkn x := rfl
theorem setTkn_setHandler (s : VM) (x : Option (List Char)) (y : Nat) : (s.setTkn x).setHandler y = (s.setHandler y).setTkn x := rfl
theorem setTkn_setWl (s : VM) (x : Option (List Char)) (y : Wordlist) : (s.setTkn x).setWl y = (s.setWl y).setTkn x := rfl
theorem setTkn_setDs (s : VM) (x : Option (List Char)) (y : DataSpace) : (s.setTkn x).setDs y = (s.setDs y).setTkn x := rfl

theorem lastError_setOutbuf (s : VM) (x : Option (List Byte)) : (s.setOutbuf x).lastError = s.lastError := rfl
theorem handler_setOutbuf (s : VM) (x : Option (List Byte)) : (s.setOutbuf x).handler = s.handler := rfl
theorem wl_setOutbuf (s : VM) (x : Option (List Byte)) : (s.setOutbuf x).wl = s.wl := rfl
theorem ds_setOutbuf (s : VM) (x : Option (List Byte)) : (s.setOutbuf x).ds = s.ds := rfl
theorem tkn_setOutbuf (s : VM) (x : Option (List Byte)) : (s.setOutbuf x).tkn = s.tkn := rfl
theorem outbuf_setOutbuf (s : VM) (x : Option (List Byte)) : (s.setOutbuf x).outbuf = x := rfl
theorem hldbuf_setOutbuf (s : VM) (x : Option (List Byte)) : (s.setOutbuf x).hldbuf = s.hldbuf := rfl
theorem refs_setOutbuf (s : VM) (x : Option (List Byte)) : (s.setOutbuf x).refs = s.refs := rfl
theorem now_setOutbuf (s : VM) (x : Option (List Byte)) : (s.setOutbuf x).now = s.now := rfl
theorem forward_setOutbuf (s : VM) (x : Option (List Byte)) : (s.setOutbuf x).forward = s.forward := rfl
theorem resolved_setOutbuf (s : VM) (x : Option (List Byte)) : (s.setOutbuf x).resolved = s.resolved := rfl
theorem labels_setOutbuf (s : VM) (x : Option (List Byte)) : (s.setOutbuf x).labels = s.labels := rfl
theorem host_setOutbuf (s : VM) (x : Option (List Byte)) : (s.setOutbuf x).host = s.host := rfl
theorem stdout_setOutbuf (s : VM) (x : Option (List Byte)) : (s.setOutbuf x).stdout = s.stdout := rfl
theorem stderr_setOutbuf (s : VM) (x : Option (List Byte)) : (s.setOutbuf x).stderr = s.stderr := rfl
theorem cur_setOutbuf (s : VM) (x : Option (List Byte)) : (s.setOutbuf x).cur = s.cur := rfl
theorem tasks_setOutbuf (s : VM) (x : Option (List Byte)) : (s.setOutbuf x).tasks = s.tasks := rfl
theorem task_setOutbuf (s : VM) (x : Option (List Byte)) : (s.setOutbuf x).task = s.task := rfl
theorem setOutbuf_setOutbuf (s : VM) (x y : Option (List Byte)) : (s.setOutbuf x).setOutbuf y = s.setOutbuf y := rfl
theorem setOutbuf_self (s : VM) : s.setOutbuf s.outbuf = s := rfl
theorem setOutbuf_setTask (s : VM) (x : Option (List Byte)) (u : Task) : (s.setOutbuf x).setTask u = (s.setTask u).setOutbuf x := rfl
theorem setOutbuf_setTaskAt (s : VM) (x : Option (List Byte)) (k : Fin 5) (u : Task) : (s.setOutbuf x).setTaskAt k u = (s.setTaskAt k u).setOutbuf x := rfl
theorem setOutbuf_setErr (s : VM) (x : Option (List Byte)) (y : Option Exn) : (s.setOutbuf x).setErr y = (s.setErr y).setOutbuf x := rfl
theorem setOutbuf_setHandler (s : VM) (x : Option (List Byte)) (y : Nat) : (s.setOutbuf x).setHandler y = (s.setHandler y).setOutbuf x := rfl
theorem setOutbuf_setWl (s : VM) (x : Option (List Byte)) (y : Wordlist) : (s.setOutbuf x).setWl y = (s.setWl y).setOutbuf x := rfl
theorem setOutbuf_setDs (s : VM) (x : Option (List Byte)) (y : DataSpace) : (s.setOutbuf x).setDs y = (s.setDs y).setOutbuf x := rfl
theorem setOutbuf_setTkn (s : VM) (x : Option (List Byte)) (y : Option (List Char)) : (s.setOutbuf x).setTkn y = (s.setTkn y).setOutbuf x := rfl

theorem lastError_setHldbuf (s : VM) (x : List Byte) : (s.setHldbuf x).lastError = s.lastError := rfl
theorem handler_setHldbuf (s : VM) (x : List Byte) : (s.setHldbuf x).handler = s.handler := rfl
theorem wl_setHldbuf (s : VM) (x : List Byte) : (s.setHldbuf x).wl = s.wl := rfl
theorem ds_setHldbuf (s : VM) (x : List Byte) : (s.setHldbuf x).ds = s.ds := rfl
theorem tkn_setHldbuf (s : VM) (x : List Byte) : (s.setHldbuf x).tkn = s.tkn := rfl
theorem outbuf_setHldbuf (s : VM) (x : List Byte) : (s.setHldbuf x).outbuf = s.outbuf := rfl
theorem hldbuf_setHldbuf (s : VM) (x : List Byte) : (s.setHldbuf x).hldbuf = x := rfl
theorem refs_setHldbuf (s : VM) (x : List Byte) : (s.setHldbuf x).refs = s.refs := rfl
theorem now_setHldbuf (s : VM) (x : List Byte) : (s.setHldbuf x).now = s.now := rfl
theorem forward_setHldbuf (s : VM) (x : List Byte) : (s.setHldbuf x).forward = s.forward := rfl
theorem resolved_setHldbuf (s : VM) (x : List Byte) : (s.setHldbuf x).resolved = s.resolved := rfl
theorem labels_setHldbuf (s : VM) (x : List Byte) : (s.setHldbuf x).labels = s.labels := rfl
theorem host_setHldbuf (s : VM) (x : List Byte) : (s.setHldbuf x).host = s.host := rfl
theorem stdout_setHldbuf (s : VM) (x : List Byte) : (s.setHldbuf x).stdout = s.stdout := rfl
theorem stderr_setHldbuf (s : VM) (x : List Byte) : (s.setHldbuf x).stderr = s.stderr := rfl
theorem cur_setHldbuf (s : VM) (x : List Byte) : (s.setHldbuf x).cur = s.cur := rfl
theorem tasks_setHldbuf (s : VM) (x : List Byte) : (s.setHldbuf x).tasks = s.tasks := rfl
theorem task_setHldbuf (s : VM) (x : List Byte) : (s.setHldbuf x).task = s.task := rfl
theorem setHldbuf_setHldbuf (s : VM) (x y : List Byte) : (s.setHldbuf x).setHldbuf y = s.setHldbuf y := rfl
theorem setHldbuf_self (s : VM) : s.setHldbuf s.hldbuf = s := rfl
theorem setHldbuf_setTask (s : VM) (x : List Byte) (u : Task) : (s.setHldbuf x).setTask u = (s.setTask u).setHldbuf x := rfl
theorem setHldbuf_setTaskAt (s : VM) (x : List Byte) (k : Fin 5) (u : Task) : (s.setHldbuf x).setTaskAt k u = (s.setTaskAt k u).setHldbuf x := rfl
theorem setHldbuf_setErr (s : VM) (x : List Byte) (y : Option Exn) : (s.setHldbuf x).setErr y = (s.setErr y).setHldbuf x := rfl
theorem setHldbuf_setHandler (s : VM) (x : List Byte) (y : Nat) : (s.setHldbuf x).setHandler y = (s.setHandler y).setHldbuf x := rfl
theorem setHldbuf_setWl (s : VM) (x : List Byte) (y : Wordlist) : (s.setHldbuf x).setWl y = (s.setWl y).setHldbuf x := rfl
theorem setHldbuf_setDs (s : VM) (x : List Byte) (y : DataSpace) : (s.setHldbuf x).setDs y = (s.setDs y).setHldbuf x := rfl
theorem setHldbuf_setTkn (s : VM) (x : List Byte) (y : Option (List Char)) : (s.setHldbuf x).setTkn y = (s.setTkn y).setHldbuf x := rfl
theorem setHldbuf_setOutbuf (s : VM) (x : List Byte) (y : Option (List Byte)) : (s.setHldbuf x).setOutbuf y = (s.setOutbuf y).setHldbuf x := rfl

theorem lastError_setRefs (s : VM) (x : Refs) : (s.setRefs x).lastError = s.lastError := rfl
theorem handler_setRefs (s : VM) (x : Refs) : (s.setRefs x).handler = s.handler := rfl
theorem wl_setRefs (s : VM) (x : Refs) : (s.setRefs x).wl = s.wl := rfl
theorem ds_setRefs (s : VM) (x : Refs) : (s.setRefs x).ds = s.ds := rfl
theorem tkn_setRefs (s : VM) (x : Refs) : (s.setRefs x).tkn = s.tkn := rfl
theorem outbuf_setRefs (s : VM) (x : Refs) : (s.setRefs x).outbuf = s.outbuf := rfl
theorem hldbuf_setRefs (s : VM) (x : Refs) : (s.setRefs x).hldbuf = s.hldbuf := rfl
theorem refs_setRefs (s : VM) (x : Refs) : (s.setRefs x).refs = x := rfl
theorem now_setRefs (s : VM) (x : Refs) : (s.setRefs x).now = s.now := rfl
theorem forward_setRefs (s : VM) (x : Refs) : (s.setRefs x).forward = s.forward := rfl
theorem resolved_setRefs (s : VM) (x : Refs) : (s.setRefs x).resolved = s.resolved := rfl
theorem labels_setRefs (s : VM) (x : Refs) : (s.setRefs x).labels = s.labels := rfl
theorem host_setRefs (s : VM) (x : Refs) : (s.setRefs x).host = s.host := rfl
theorem stdout_setRefs (s : VM) (x : Refs) : (s.setRefs x).stdout = s.stdout := rfl
theorem stderr_setRefs (s : VM) (x : Refs) : (s.setRefs x).stderr = s.stderr := rfl
theorem cur_setRefs (s : VM) (x : Refs) : (s.setRefs x).cur = s.cur := rfl
theorem tasks_setRefs (s : VM) (x : Refs) : (s.setRefs x).tasks = s.tasks := rfl
theorem task_setRefs (s : VM) (x : Refs) : (s.setRefs x).task = s.task := rfl
theorem setRefs_setRefs (s : VM) (x y : Refs) : (s.setRefs x).setRefs y = s.setRefs y := rfl
theorem setRefs_self (s : VM) : s.setRefs s.refs = s := rfl
theorem setRefs_setTask (s : VM) (x : Refs) (u : Task) : (s.setRefs x).setTask u = (s.setTask u).setRefs x := rfl
theorem setRefs_setTaskAt (s : VM) (x : Refs) (k : Fin 5) (u : Task) : (s.setRefs x).setTaskAt k u = (s.setTaskAt k u).setRefs x := rfl
theorem setRefs_setErr (s : VM) (x : Refs) (y : Option Exn) : (s.setRefs x).setErr y = (s.setErr y).setRefs x := rfl
theorem setRefs_setHandler (s : VM) (x : Refs) (y : Nat) : (s.setRefs x).setHandler y = (s.setHandler y).setRefs x := rfl
theorem setRefs_setWl (s : VM) (x : Refs) (y : Wordlist) : (s.setRefs x).setWl y = (s.setWl y).setRefs x := rfl
theorem setRefs_setDs (s : VM) (x : Refs) (y : DataSpace) : (s.setRefs x).setDs y = (s.setDs y).setRefs x := rfl
theorem setRefs_setTkn (s : VM) (x : Refs) (y : Option (List Char)) : (s.setRefs x).setTkn y = (s.setTkn y).setRefs x := rfl
theorem setRefs_setOutbuf (s : VM) (x : Refs) (y : Option (List Byte)) : (s.setRefs x).setOutbuf y = (s.setOutbuf y).setRefs x := rfl
theorem setRefs_setHldbuf (s : VM) (x : Refs) (y : List Byte) : (s.setRefs x).setHldbuf y = (s.setHldbuf y).setRefs x := rfl

theorem lastError_setNow (s : VM) (x : Nat) : (s.setNow x).lastError = s.lastError := rfl
theorem handler_setNow (s : VM) (x : Nat) : (s.setNow x).handler = s.handler := rfl
theorem wl_setNow (s : VM) (x : Nat) : (s.setNow x).wl = s.wl := rfl
theorem ds_setNow (s : VM) (x : Nat) : (s.setNow x).ds = s.ds := rfl
theorem tkn_setNow (s : VM) (x : Nat) : (s.setNow x).tkn = s.tkn := rfl
theorem outbuf_setNow (s : VM) (x : Nat) : (s.setNow x).outbuf = s.outbuf := rfl
theorem hldbuf_setNow (s : VM) (x : Nat) : (s.setNow x).hldbuf = s.hldbuf := rfl
theorem refs_setNow (s : VM) (x : Nat) : (s.setNow x).refs = s.refs := rfl
theorem now_setNow (s : VM) (x : Nat) : (s.setNow x).now = x := rfl
theorem forward_setNow (s : VM) (x : Nat) : (s.setNow x).forward = s.forward := rfl
theorem resolved_setNow (s : VM) (x : Nat) : (s.setNow x).resolved = s.resolved := rfl
theorem labels_setNow (s : VM) (x : Nat) : (s.setNow x).labels = s.labels := rfl
theorem host_setNow (s : VM) (x : Nat) : (s.setNow x).host = s.host := rfl
theorem stdout_setNow (s : VM) (x : Nat) : (s.setNow x).stdout = s.stdout := rfl
theorem stderr_setNow (s : VM) (x : Nat) : (s.setNow x).stderr = s.stderr := rfl
theorem cur_setNow (s : VM) (x : Nat) : (s.setNow x).cur = s.cur := rfl
theorem tasks_setNow (s : VM) (x : Nat) : (s.setNow x).tasks = s.tasks := rfl
theorem task_setNow (s : VM) (x : Nat) : (s.setNow x).task = s.task := rfl
theorem setNow_setNow (s : VM) (x y : Nat) : (s.setNow x).setNow y = s.setNow y := rfl
theorem setNow_self (s : VM) : s.setNow s.now = s := rfl
theorem setNow_setTask (s : VM) (x : Nat) (u : Task) : (s.setNow x).setTask u = (s.setTask u).setNow x := rfl
theorem setNow_setTaskAt (s : VM) (x : Nat) (k : Fin 5) (u : Task) : (s.setNow x).setTaskAt k u = (s.setTaskAt k u).setNow x := rfl
theorem setNow_setErr (s : VM) (x : Nat) (y : Option Exn) : (s.setNow x).setErr y = (s.setErr y).setNow x := rfl
theorem setNow_setHandler (s : VM) (x : Nat) (y : Nat) : (s.setNow x).setHandler y = (s.setHandler y).setNow x := rfl
theorem setNow_setWl (s : VM) (x : Nat) (y : Wordlist) : (s.setNow x).setWl y = (s.setWl y).setNow x := rfl
theorem setNow_setDs (s : VM) (x : Nat) (y : DataSpace) : (s.setNow x).setDs y = (s.setDs y).setNow x := rfl
theorem setNow_setTkn (s : VM) (x : Nat) (y : Option (List Char)) : (s.setNow x).setTkn y = (s.setTkn y).setNow x := rfl
theorem setNow_setOutbuf (s : VM) (x : Nat) (y : Option (List Byte)) : (s.setNow x).setOutbuf y = (s.setOutbuf y).setNow x := rfl
theorem setNow_setHldbuf (s : VM) (x : Nat) (y : List Byte) : (s.setNow x).setHldbuf y = (s.setHldbuf y).setNow x := rfl
theorem setNow_setRefs (s : VM) (x : Nat) (y : Refs) : (s.setNow x).setRefs y = (s.setRefs y).setNow x := rfl

theorem lastError_setForward (s : VM) (x : List Nat) : (s.setForward x).lastError = s.lastError := rfl
theorem handler_setForward (s : VM) (x : List Nat) : (s.setForward x).handler = s.handler := rfl
theorem wl_setForward (s : VM) (x : List Nat) : (s.setForward x).wl = s.wl := rfl
theorem ds_setForward (s : VM) (x : List Nat) : (s.setForward x).ds = s.ds := rfl
theorem tkn_setForward (s : VM) (x : List Nat) : (s.setForward x).tkn = s.tkn := rfl
theorem outbuf_setForward (s : VM) (x : List Nat) : (s.setForward x).outbuf = s.outbuf := rfl
theorem hldbuf_setForward (s : VM) (x : List Nat) : (s.setForward x).hldbuf = s.hldbuf := rfl
theorem refs_setForward (s : VM) (x : List Nat) : (s.setForward x).refs = s.refs := rfl
theorem now_setForward (s : VM) (x : List Nat) : (s.setForward x).now = s.now := rfl
theorem forward_setForward (s : VM) (x : List Nat) : (s.setForward x).forward = x := rfl
theorem resolved_setForward (s : VM) (x : List Nat) : (s.setForward x).resolved = s.resolved := rfl
theorem labels_setForward (s : VM) (x : List Nat) : (s.setForward x).labels = s.labels := rfl
theorem host_setForward (s : VM) (x : List Nat) : (s.setForward x).host = s.host := rfl
theorem stdout_setForward (s : VM) (x : List Nat) : (s.setForward x).stdout = s.stdout := rfl
theorem stderr_setForward (s : VM) (x : List Nat) : (s.setForward x).stderr = s.stderr := rfl
theorem cur_setForward (s : VM) (x : List Nat) : (s.setForward x).cur = s.cur := rfl
theorem tasks_setForward (s : VM) (x : List Nat) : (s.setForward x).tasks = s.tasks := rfl
theorem task_setForward (s : VM) (x : List Nat) : (s.setForward x).task = s.task := rfl
theorem setForward_setForward (s : VM) (x y : List Nat) : (s.setForward x).setForward y = s.setForward y := rfl
theorem setForward_self (s : VM) : s.setForward s.forward = s := rfl
theorem setForward_setTask (s : VM) (x : List Nat) (u : Task) : (s.setForward x).setTask u = (s.setTask u).setForward x := rfl
theorem setForward_setTaskAt (s : VM) (x : List Nat) (k : Fin 5) (u : Task) : (s.setForward x).setTaskAt k u = (s.setTaskAt k u).setForward x := rfl
theorem setForward_setErr (s : VM) (x : List Nat) (y : Option Exn) : (s.setForward x).setErr y = (s.setErr y).setForward x := rfl
theorem setForward_setHandler (s : VM) (x : List Nat) (y : Nat) : (s.setForward x).setHandler y = (s.setHandler y).setForward x := rfl
theorem setForward_setWl (s : VM) (x : List Nat) (y : Wordlist) : (s.setForward x).setWl y = (s.setWl y).setForward x := rfl
theorem setForward_setDs (s : VM) (x : List Nat) (y : DataSpace) : (s.setForward x).setDs y = (s.setDs y).setForward x := rfl
theorem setForward_setTkn (s : VM) (x : List Nat) (y : Option (List Char)) : (s.setForward x).setTkn y = (s.setTkn y).setForward x := rfl
theorem setForward_setOutbuf (s : VM) (x : List Nat) (y : Option (List Byte)) : (s.setForward x).setOutbuf y = (s.setOutbuf y).setForward x := rfl
theorem setForward_setHldbuf (s : VM) (x : List Nat) (y : List Byte) : (s.setForward x).setHldbuf y = (s.setHldbuf y).setForward x := rfl
theorem setForward_setRefs (s : VM) (x : List Nat) (y : Refs) : (s.setForward x).setRefs y = (s.setRefs y).setForward x := rfl
theorem setForward_setNow (s : VM) (x : List Nat) (y : Nat) : (s.setForward x).setNow y = (s.setNow y).setForward x := rfl

theorem lastError_setResolved (s : VM) (x : List Nat) : (s.setResolved x).lastError = s.lastError := rfl
theorem handler_setResolved (s : VM) (x : List Nat) : (s.setResolved x).handler = s.handler := rfl
theorem wl_setResolved (s : VM) (x : List Nat) : (s.setResolved x).wl = s.wl := rfl
theorem ds_setResolved (s : VM) (x : List Nat) : (s.setResolved x).ds = s.ds := rfl
theorem tkn_setResolved (s : VM) (x : List Nat) : (s.setResolved x).tkn = s.tkn := rfl
theorem outbuf_setResolved (s : VM) (x : List Nat) : (s.setResolved x).outbuf = s.outbuf := rfl
theorem hldbuf_setResolved (s : VM) (x : List Nat) : (s.setResolved x).hldbuf = s.hldbuf := rfl
theorem refs_setResolved (s : VM) (x : List Nat) : (s.setResolved x).refs = s.refs := rfl
theorem now_setResolved (s : VM) (x : List Nat) : (s.setResolved x).now = s.now := rfl
theorem forward_setResolved (s : VM) (x : List Nat) : (s.setResolved x).forward = s.forward := rfl
theorem resolved_setResolved (s : VM) (x : List Nat) : (s.setResolved x).resolved = x := rfl
theorem labels_setResolved (s : VM) (x : List Nat) : (s.setResolved x).labels = s.labels := rfl
theorem host_setResolved (s : VM) (x : List Nat) : (s.setResolved x).host = s.host := rfl
theorem stdout_setResolved (s : VM) (x : List Nat) : (s.setResolved x).stdout = s.stdout := rfl
theorem stderr_setResolved (s : VM) (x : List Nat) : (s.setResolved x).stderr = s.stderr := rfl
theorem cur_setResolved (s : VM) (x : List Nat) : (s.setResolved x).cur = s.cur := rfl
theorem tasks_setResolved (s : VM) (x : List Nat) : (s.setResolved x).tasks = s.tasks := rfl
theorem task_setResolved (s : VM) (x : List Nat) : (s.setResolved x).task = s.task := rfl
theorem setResolved_setResolved (s : VM) (x y : List Nat) : (s.setResolved x).setResolved y = s.setResolved y := rfl
theorem setResolved_self (s : VM) : s.setResolved s.resolved = s := rfl
theorem setResolved_setTask (s : VM) (x : List Nat) (u : Task) : (s.setResolved x).setTask u = (s.setTask u).setResolved x := rfl
theorem setResolved_setTaskAt (s : VM) (x : List Nat) (k : Fin 5) (u : Task) : (s.setResolved x).setTaskAt k u = (s.setTaskAt k u).setResolved x := rfl
theorem setResolved_setErr (s : VM) (x : List Nat) (y : Option Exn) : (s.setResolved x).setErr y = (s.setErr y).setResolved x := rfl
theorem setResolved_setHandler (s : VM) (x : List Nat) (y : Nat) : (s.setResolved x).setHandler y = (s.setHandler y).setResolved x := rfl
theorem setResolved_setWl (s : VM) (x : List Nat) (y : Wordlist) : (s.setResolved x).setWl y = (s.setWl y).setResolved x := rfl
theorem setResolved_setDs (s : VM) (x : List Nat) (y : DataSpace) : (s.setResolved x).setDs y = (s.setDs y).setResolved x := rfl
theorem setResolved_setTkn (s : VM) (x : List Nat) (y : Option (List Char)) : (s.setResolved x).setTkn y = (s.setTkn y).setResolved x := rfl
theorem setResolved_setOutbuf (s : VM) (x : List Nat) (y : Option (List Byte)) : (s.setResolved x).setOutbuf y = (s.setOutbuf y).setResolved x := rfl
theorem setResolved_setHldbuf (s : VM) (x : List Nat) (y : List Byte) : (s.setResolved x).setHldbuf y = (s.setHldbuf y).setResolved x := rfl
theorem setResolved_setRefs (s : VM) (x : List Nat) (y : Refs) : (s.setResolved x).setRefs y = (s.setRefs y).setResolved x := rfl
theorem setResolved_setNow (s : VM) (x : List Nat) (y : Nat) : (s.setResolved x).setNow y = (s.setNow y).setResolved x := rfl
theorem setResolved_setForward (s : VM) (x : List Nat) (y : List Nat) : (s.setResolved x).setForward y = (s.setForward y).setResolved x := rfl

theorem lastError_setLabels (s : VM) (x : List Nat) : (s.setLabels x).lastError = s.lastError := rfl
theorem handler_setLabels (s : VM) (x : List Nat) : (s.setLabels x).handler = s.handler := rfl
theorem wl_setLabels (s : VM) (x : List Nat) : (s.setLabels x).wl = s.wl := rfl
theorem ds_setLabels (s : VM) (x : List Nat) : (s.setLabels x).ds = s.ds := rfl
theorem tkn_setLabels (s : VM) (x : List Nat) : (s.setLabels x).tkn = s.tkn := rfl
theorem outbuf_setLabels (s : VM) (x : List Nat) : (s.setLabels x).outbuf = s.outbuf := rfl
theorem hldbuf_setLabels (s : VM) (x : List Nat) : (s.setLabels x).hldbuf = s.hldbuf := rfl
theorem refs_setLabels (s : VM) (x : List Nat) : (s.setLabels x).refs = s.refs := rfl
theorem now_setLabels (s : VM) (x : List Nat) : (s.setLabels x).now = s.now := rfl
theorem forward_setLabels (s : VM) (x : List Nat) : (s.setLabels x).forward = s.forward := rfl
theorem resolved_setLabels (s : VM) (x : List Nat) : (s.setLabels x).resolved = s.resolved := rfl
theorem labels_setLabels (s : VM) (x : List Nat) : (s.setLabels x).labels = x := rfl
theorem host_setLabels (s : VM) (x : List Nat) : (s.setLabels x).host = s.host := rfl
theorem stdout_setLabels (s : VM) (x : List Nat) : (s.setLabels x).stdout = s.stdout := rfl
theorem stderr_setLabels (s : VM) (x : List Nat) : (s.setLabels x).stderr = s.stderr := rfl
theorem cur_setLabels (s : VM) (x : List Nat) : (s.setLabels x).cur = s.cur := rfl
theorem tasks_setLabels (s : VM) (x : List Nat) : (s.setLabels x).tasks = s.tasks := rfl
theorem task_setLabels (s : VM) (x : List Nat) : (s.setLabels x).task = s.task := rfl
theorem setLabels_setLabels (s : VM) (x y : List Nat) : (s.setLabels x).setLabels y = s.setLabels y := rfl
theorem setLabels_self (s : VM) : s.setLabels s.labels = s := rfl
theorem setLabels_setTask (s : VM) (x : List Nat) (u : Task) : (s.setLabels x).setTask u = (s.setTask u).setLabels x := rfl
theorem setLabels_setTaskAt (s : VM) (x : List Nat) (k : Fin 5) (u : Task) : (s.setLabels x).setTaskAt k u = (s.setTaskAt k u).setLabels x := rfl
theorem setLabels_setErr (s : VM) (x : List Nat) (y : Option Exn) : (s.setLabels x).setErr y = (s.setErr y).setLabels x := rfl
theorem setLabels_setHandler (s : VM) (x : List Nat) (y : Nat) : (s.setLabels x).setHandler y = (s.setHandler y).setLabels x := rfl
theorem setLabels_setWl (s : VM) (x : List Nat) (y : Wordlist) : (s.setLabels x).setWl y = (s.setWl y).setLabels x := rfl
theorem setLabels_setDs (s : VM) (x : List Nat) (y : DataSpace) : (s.setLabels x).setDs y = (s.setDs y).setLabels x := rfl
theorem setLabels_setTkn (s : VM) (x : List Nat) (y : Option (List Char)) : (s.setLabels x).setTkn y = (s.setTkn y).setLabels x := rfl
theorem setLabels_setOutbuf (s : VM) (x : List Nat) (y : Option (List Byte)) : (s.setLabels x).setOutbuf y = (s.setOutbuf y).setLabels x := rfl
theorem setLabels_setHldbuf (s : VM) (x : List Nat) (y : List Byte) : (s.setLabels x).setHldbuf y = (s.setHldbuf y).setLabels x := rfl
theorem setLabels_setRefs (s : VM) (x : List Nat) (y : Refs) : (s.setLabels x).setRefs y = (s.setRefs y).setLabels x := rfl
theorem setLabels_setNow (s : VM) (x : List Nat) (y : Nat) : (s.setLabels x).setNow y = (s.setNow y).setLabels x := rfl
theorem setLabels_setForward (s : VM) (x : List Nat) (y : List Nat) : (s.setLabels x).setForward y = (s.setForward y).setLabels x := rfl
theorem setLabels_setResolved (s : VM) (x : List Nat) (y : List Nat) : (s.setLabels x).setResolved y = (s.setResolved y).setLabels x := rfl

theorem lastError_setHost (s : VM) (x : Host) : (s.setHost x).lastError = s.lastError := rfl
theorem handler_setHost (s : VM) (x : Host) : (s.setHost x).handler = s.handler := rfl
theorem wl_setHost (s : VM) (x : Host) : (s.setHost x).wl = s.wl := rfl
theorem ds_setHost (s : VM) (x : Host) : (s.setHost x).ds = s.ds := rfl
theorem tkn_setHost (s : VM) (x : Host) : (s.setHost x).tkn = s.tkn := rfl
theorem outbuf_setHost (s : VM) (x : Host) : (s.setHost x).outbuf = s.outbuf := rfl
theorem hldbuf_setHost (s : VM) (x : Host) : (s.setHost x).hldbuf = s.hldbuf := rfl
theorem refs_setHost (s : VM) (x : Host) : (s.setHost x).refs = s.refs := rfl
theorem now_setHost (s : VM) (x : Host) : (s.setHost x).now = s.now := rfl
theorem forward_setHost (s : VM) (x : Host) : (s.setHost x).forward = s.forward := rfl
theorem resolved_setHost (s : VM) (x : Host) : (s.setHost x).resolved = s.resolved := rfl
theorem labels_setHost (s : VM) (x : Host) : (s.setHost x).labels = s.labels := rfl
theorem host_setHost (s : VM) (x : Host) : (s.setHost x).host = x := rfl
theorem stdout_setHost (s : VM) (x : Host) : (s.setHost x).stdout = s.stdout := rfl
theorem stderr_setHost (s : VM) (x : Host) : (s.setHost x).stderr = s.stderr := rfl
theorem cur_setHost (s : VM) (x : Host) : (s.setHost x).cur = s.cur := rfl
theorem tasks_setHost (s : VM) (x : Host) : (s.setHost x).tasks = s.tasks := rfl
theorem task_setHost (s : VM) (x : Host) : (s.setHost x).task = s.task := rfl
theorem setHost_setHost (s : VM) (x y : Host) : (s.setHost x).setHost y = s.setHost y := rfl
theorem setHost_self (s : VM) : s.setHost s.host = s := rfl
theorem setHost_setTask (s : VM) (x : Host) (u : Task) : (s.setHost x).setTask u = (s.setTask u).setHost x := rfl
theorem setHost_setTaskAt (s : VM) (x : Host) (k : Fin 5) (u : Task) : (s.setHost x).setTaskAt k u = (s.setTaskAt k u).setHost x := rfl
theorem setHost_setErr (s : VM) (x : Host) (y : Option Exn) : (s.setHost x).setErr y = (s.setErr y).setHost x := rfl
theorem setHost_setHandler (s : VM) (x : Host) (y : Nat) : (s.setHost x).setHandler y = (s.setHandler y).setHost x := rfl
theorem setHost_setWl (s : VM) (x : Host) (y : Wordlist) : (s.setHost x).setWl y = (s.setWl y).setHost x := rfl
theorem setHost_setDs (s : VM) (x : Host) (y : DataSpace) : (s.setHost x).setDs y = (s.setDs y).setHost x := rfl
theorem setHost_setTkn (s : VM) (x : Host) (y : Option (List Char)) : (s.setHost x).setTkn y = (s.setTkn y).setHost x := rfl
theorem setHost_setOutbuf (s : VM) (x : Host) (y : Option (List Byte)) : (s.setHost x).setOutbuf y = (s.setOutbuf y).setHost x := rfl
theorem setHost_setHldbuf (s : VM) (x : Host) (y : List Byte) : (s.setHost x).setHldbuf y = (s.setHldbuf y).setHost x := rfl
theorem setHost_setRefs (s : VM) (x : Host) (y : Refs) : (s.setHost x).setRefs y = (s.setRefs y).setHost x := rfl
theorem setHost_setNow (s : VM) (x : Host) (y : Nat) : (s.setHost x).setNow y = (s.setNow y).setHost x := rfl
theorem setHost_setForward (s : VM) (x : Host) (y : List Nat) : (s.setHost x).setForward y = (s.setForward y).setHost x := rfl
theorem setHost_setResolved (s : VM) (x : Host) (y : List Nat) : (s.setHost x).setResolved y = (s.setResolved y).setHost x := rfl
theorem setHost_setLabels (s : VM) (x : Host) (y : List Nat) : (s.setHost x).setLabels y = (s.setLabels y).setHost x := rfl

theorem lastError_setStdout (s : VM) (x : List Byte) : (s.setStdout x).lastError = s.lastError := rfl
theorem handler_setStdout (s : VM) (x : List Byte) : (s.setStdout x).handler = s.handler := rfl
theorem wl_setStdout (s : VM) (x : List Byte) : (s.setStdout x).wl = s.wl := rfl
theorem ds_setStdout (s : VM) (x : List Byte) : (s.setStdout x).ds = s.ds := rfl
theorem tkn_setStdout (s : VM) (x : List Byte) : (s.setStdout x).tkn = s.tkn := rfl
theorem outbuf_setStdout (s : VM) (x : List Byte) : (s.setStdout x).outbuf = s.outbuf := rfl
theorem hldbuf_setStdout (s : VM) (x : List Byte) : (s.setStdout x).hldbuf = s.hldbuf := rfl
theorem refs_setStdout (s : VM) (x : List Byte) : (s.setStdout x).refs = s.refs := rfl
theorem now_setStdout (s : VM) (x : List Byte) : (s.setStdout x).now = s.now := rfl
theorem forward_setStdout (s : VM) (x : List Byte) : (s.setStdout x).forward = s.forward := rfl
theorem resolved_setStdout (s : VM) (x : List Byte) : (s.setStdout x).resolved = s.resolved := rfl
theorem labels_setStdout (s : VM) (x : List Byte) : (s.setStdout x).labels = s.labels := rfl
theorem host_setStdout (s : VM) (x : List Byte) : (s.setStdout x).host = s.host := rfl
theorem stdout_setStdout (s : VM) (x : List Byte) : (s.setStdout x).stdout = x := rfl
theorem stderr_setStdout (s : VM) (x : List Byte) : (s.setStdout x).stderr = s.stderr := rfl
theorem cur_setStdout (s : VM) (x : List Byte) : (s.setStdout x).cur = s.cur := rfl
theorem tasks_setStdout (s : VM) (x : List Byte) : (s.setStdout x).tasks = s.tasks := rfl
theorem task_setStdout (s : VM) (x : List Byte) : (s.setStdout x).task = s.task := rfl
theorem setStdout_setStdout (s : VM) (x y : List Byte) : (s.setStdout x).setStdout y = s.setStdout y := rfl
theorem setStdout_self (s : VM) : s.setStdout s.stdout = s := rfl
theorem setStdout_setTask (s : VM) (x : List Byte) (u : Task) : (s.setStdout x).setTask u = (s.setTask u).setStdout x := rfl
theorem setStdout_setTaskAt (s : VM) (x : List Byte) (k : Fin 5) (u : Task) : (s.setStdout x).setTaskAt k u = (s.setTaskAt k u).setStdout x := rfl
theorem setStdout_setErr (s : VM) (x : List Byte) (y : Option Exn) : (s.setStdout x).setErr y = (s.setErr y).setStdout x := rfl
theorem setStdout_setHandler (s : VM) (x : List Byte) (y : Nat) : (s.setStdout x).setHandler y = (s.setHandler y).setStdout x := rfl
theorem setStdout_setWl (s : VM) (x : List Byte) (y : Wordlist) : (s.setStdout x).setWl y = (s.setWl y).setStdout x := rfl
theorem setStdout_setDs (s : VM) (x : List Byte) (y : DataSpace) : (s.setStdout x).setDs y = (s.setDs y).setStdout x := rfl
theorem setStdout_setTkn (s : VM) (x : List Byte) (y : Option (List Char)) : (s.setStdout x).setTkn y = (s.setTkn y).setStdout x := rfl
theorem setStdout_setOutbuf (s : VM) (x : List Byte) (y : Option (List Byte)) : (s.setStdout x).setOutbuf y = (s.setOutbuf y).setStdout x := rfl
theorem setStdout_setHldbuf (s : VM) (x : List Byte) (y : List Byte) : (s.setStdout x).setHldbuf y = (s.setHldbuf y).setStdout x := rfl
theorem setStdout_setRefs (s : VM) (x : List Byte) (y : Refs) : (s.setStdout x).setRefs y = (s.setRefs y).setStdout x := rfl
theorem setStdout_setNow (s : VM) (x : List Byte) (y : Nat) : (s.setStdout x).setNow y = (s.setNow y).setStdout x := rfl
theorem setStdout_setForward (s : VM) (x : List Byte) (y : List Nat) : (s.setStdout x).setForward y = (s.setForward y).setStdout x := rfl
theorem setStdout_setResolved (s : VM) (x : List Byte) (y : List Nat) : (s.setStdout x).setResolved y = (s.setResolved y).setStdout x := rfl
theorem setStdout_setLabels (s : VM) (x : List Byte) (y : List Nat) : (s.setStdout x).setLabels y = (s.setLabels y).setStdout x := rfl
theorem setStdout_setHost (s : VM) (x : List Byte) (y : Host) : (s.setStdout x).setHost y = (s.setHost y).setStdout x := rfl

theorem lastError_setStderr (s : VM) (x : List Byte) : (s.setStderr x).lastError = s.lastError := rfl
theorem handler_setStderr (s : VM) (x : List Byte) : (s.setStderr x).handler = s.handler := rfl
theorem wl_setStderr (s : VM) (x : List Byte) : (s.setStderr x).wl = s.wl := rfl
theorem ds_setStderr (s : VM) (x : List Byte) : (s.setStderr x).ds = s.ds := rfl
theorem tkn_setStderr (s : VM) (x : List Byte) : (s.setStderr x).tkn = s.tkn := rfl
theorem outbuf_setStderr (s : VM) (x : List Byte) : (s.setStderr x).outbuf = s.outbuf := rfl
theorem hldbuf_setStderr (s : VM) (x : List Byte) : (s.setStderr x).hldbuf = s.hldbuf := rfl
theorem refs_setStderr (s : VM) (x : List Byte) : (s.setStderr x).refs = s.refs := rfl
theorem now_setStderr (s : VM) (x : List Byte) : (s.setStderr x).now = s.now := rfl
theorem forward_setStderr (s : VM) (x : List Byte) : (s.setStderr x).forward = s.forward := rfl
theorem resolved_setStderr (s : VM) (x : List Byte) : (s.setStderr x).resolved = s.resolved := rfl
theorem labels_setStderr (s : VM) (x : List Byte) : (s.setStderr x).labels = s.labels := rfl
theorem host_setStderr (s : VM) (x : List Byte) : (s.setStderr x).host = s.host := rfl
theorem stdout_setStderr (s : VM) (x : List Byte) : (s.setStderr x).stdout = s.stdout := rfl
theorem stderr_setStderr (s : VM) (x : List Byte) : (s.setStderr x).stderr = x := rfl
theorem cur_setStderr (s : VM) (x : List Byte) : (s.setStderr x).cur = s.cur := rfl
theorem tasks_setStderr (s : VM) (x : List Byte) : (s.setStderr x).tasks = s.tasks := rfl
theorem task_setStderr (s : VM) (x : List Byte) : (s.setStderr x).task = s.task := rfl
theorem setStderr_setStderr (s : VM) (x y : List Byte) : (s.setStderr x).setStderr y = s.setStderr y := rfl
theorem setStderr_self (s : VM) : s.setStderr s.stderr = s := rfl
theorem setStderr_setTask (s : VM) (x : List Byte) (u : Task) : (s.setStderr x).setTask u = (s.setTask u).setStderr x := rfl
theorem setStderr_setTaskAt (s : VM) (x : List Byte) (k : Fin 5) (u : Task) : (s.setStderr x).setTaskAt k u = (s.setTaskAt k u).setStderr x := rfl
theorem setStderr_setErr (s : VM) (x : List Byte) (y : Option Exn) : (s.setStderr x).setErr y = (s.setErr y).setStderr x := rfl
theorem setStderr_setHandler (s : VM) (x : List Byte) (y : Nat) : (s.setStderr x).setHandler y = (s.setHandler y).setStderr x := rfl
theorem setStderr_setWl (s : VM) (x : List Byte) (y : Wordlist) : (s.setStderr x).setWl y = (s.setWl y).setStderr x := rfl
theorem setStderr_setDs (s : VM) (x : List Byte) (y : DataSpace) : (s.setStderr x).setDs y = (s.setDs y).setStderr x := rfl
theorem setStderr_setTkn (s : VM) (x : List Byte) (y : Option (List Char)) : (s.setStderr x).setTkn y = (s.setTkn y).setStderr x := rfl
theorem setStderr_setOutbuf (s : VM) (x : List Byte) (y : Option (List Byte)) : (s.setStderr x).setOutbuf y = (s.setOutbuf y).setStderr x := rfl
theorem setStderr_setHldbuf (s : VM) (x : List Byte) (y : List Byte) : (s.setStderr x).setHldbuf y = (s.setHldbuf y).setStderr x := rfl
theorem setStderr_setRefs (s : VM) (x : List Byte) (y : Refs) : (s.setStderr x).setRefs y = (s.setRefs y).setStderr x := rfl
theorem setStderr_setNow (s : VM) (x : List Byte) (y : Nat) : (s.setStderr x).setNow y = (s.setNow y).setStderr x := rfl
theorem setStderr_setForward (s : VM) (x : List Byte) (y : List Nat) : (s.setStderr x).setForward y = (s.setForward y).setStderr x := rfl
theorem setStderr_setResolved (s : VM) (x : List Byte) (y : List Nat) : (s.setStderr x).setResolved y = (s.setResolved y).setStderr x := rfl
theorem setStderr_setLabels (s : VM) (x : List Byte) (y : List Nat) : (s.setStderr x).setLabels y = (s.setLabels y).setStderr x := rfl
theorem setStderr_setHost (s : VM) (x : List Byte) (y : Host) : (s.setStderr x).setHost y = (s.setHost y).setStderr x := rfl
theorem setStderr_setStdout (s : VM) (x : List Byte) (y : List Byte) : (s.setStderr x).setStdout y = (s.setStdout y).setStderr x := rfl

theorem setTkn_of_eq {s : VM} {x : Option (List Char)} (h : s.tkn = x) : s.setTkn x = s := by subst h; rfl
theorem setErr_of_eq {s : VM} {x : Option Exn} (h : s.lastError = x) : s.setErr x = s := by subst h; rfl
end VM

theorem modVM_run (f : VM → VM) (s : VM) : modVM f s = .ok ((), f s) := rfl
theorem setError_run (e : Option Exn) (s : VM) : setError e s = .ok ((), s.setErr e) := rfl
theorem takeToken_run {s : VM} {t : List Char} (h : s.tkn = some t) :
    takeToken s = .ok (t, s.setTkn none) := by simp only [takeToken, h]; rfl
theorem putToken_run (t : List Char) (s : VM) : putToken t s = .ok ((), s.setTkn (some t)) := rfl
theorem outBytes_run (bs : List Byte) (s : VM) :
    outBytes bs s = .ok ((), s.setOutbuf (s.outbuf.map (· ++ bs))) := rfl
theorem dsOp_run {f : DataSpace → Except Fault DataSpace} {s : VM} {d : DataSpace}
    (h : f s.ds = .ok d) : dsOp f s = .ok ((), s.setDs d) := dsOp_ok h
theorem wlPush_run (n : List Byte) (w : Word) (s : VM) :
    wlPush n w s = .ok ((), s.setWl (s.wl.push n w)) := rfl
theorem clearStacks_run (s : VM) : clearStacks s = .ok ((), s.setTask { s.task with
    s := s.task.s.reset, f := s.task.f.reset, c := s.task.c.reset }) := rfl
theorem setTask_lines (s : VM) (t : Task) : (s.setTask t).task = t := VM.task_setTask s t

/-- The state after the non-handler part of `abort_with`. -/
def VM.aborted (s : VM) (e : Exn) : VM :=
  (s.setTask { s.task with s := s.task.s.reset, f := s.task.f.reset, c := s.task.c.reset,
                           st := { s.task.st with abortedWp := s.task.st.wp } }).setErr (some e)


set_option maxRecDepth 20000 in
open Lean.Parser.Tactic in
/-- Symbolic execution: `simp only` with the monad, the state accesses and the setters. -/
macro "vm_simp" "[" ls:simpLemma,+ "]" loc:(location)? : tactic =>
  `(tactic| simp only [$ls,*, M.bind_apply, M.pure_apply, M.ite_apply, getVM_apply, modVM_run, fault_apply,
    liftE_ok, liftE_error, getTask_apply, modTask_apply, getSt_apply, modSt_apply,
    getDs_apply, sPush_apply, sPush2_apply, sPush3_apply, sPop_apply, sPop2_apply,
    sPop3_apply, rPush_apply, rPush2_apply, rPush3_apply, rPop_apply, rPop2_apply,
    rPop3_apply, cPush_apply, cPop_apply, fPush_apply, fPush2_apply, fPush3_apply,
    fPop_apply, fPop2_apply, fPop3_apply, getWl_apply, getRefs_apply, setError_run,
    getError_apply, putToken_run, outBytes_run, wlPush_run, clearStacks_run, VM.task_setTask,
    VM.setTask_setTask, VM.setTask_task, VM.cur_setTask, VM.lastError_setTask, VM.handler_setTask, VM.wl_setTask,
    VM.ds_setTask, VM.tkn_setTask, VM.outbuf_setTask, VM.hldbuf_setTask, VM.refs_setTask, VM.now_setTask,
    VM.forward_setTask, VM.resolved_setTask, VM.labels_setTask, VM.host_setTask, VM.stdout_setTask, VM.stderr_setTask,
    VM.lastError_setErr, VM.handler_setErr, VM.wl_setErr, VM.ds_setErr, VM.tkn_setErr, VM.outbuf_setErr,
    VM.hldbuf_setErr, VM.refs_setErr, VM.now_setErr, VM.forward_setErr, VM.resolved_setErr, VM.labels_setErr,
    VM.host_setErr, VM.stdout_setErr, VM.stderr_setErr, VM.cur_setErr, VM.tasks_setErr, VM.task_setErr,
    VM.setErr_setErr, VM.setErr_self, VM.setErr_setTask, VM.setErr_setTaskAt, VM.lastError_setHandler, VM.handler_setHandler,
    VM.wl_setHandler, VM.ds_setHandler, VM.tkn_setHandler, VM.outbuf_setHandler, VM.hldbuf_setHandler, VM.refs_setHandler,
    VM.now_setHandler, VM.forward_setHandler, VM.resolved_setHandler, VM.labels_setHandler, VM.host_setHandler, VM.stdout_setHandler,
    VM.stderr_setHandler, VM.cur_setHandler, VM.tasks_setHandler, VM.task_setHandler, VM.setHandler_setHandler, VM.setHandler_self,
    VM.setHandler_setTask, VM.setHandler_setTaskAt, VM.setHandler_setErr, VM.lastError_setWl, VM.handler_setWl, VM.wl_setWl,
    VM.ds_setWl, VM.tkn_setWl, VM.outbuf_setWl, VM.hldbuf_setWl, VM.refs_setWl, VM.now_setWl,
    VM.forward_setWl, VM.resolved_setWl, VM.labels_setWl, VM.host_setWl, VM.stdout_setWl, VM.stderr_setWl,
    VM.cur_setWl, VM.tasks_setWl, VM.task_setWl, VM.setWl_setWl, VM.setWl_self, VM.setWl_setTask,
    VM.setWl_setTaskAt, VM.setWl_setErr, VM.setWl_setHandler, VM.lastError_setDs, VM.handler_setDs, VM.wl_setDs,
    VM.ds_setDs, VM.tkn_setDs, VM.outbuf_setDs, VM.hldbuf_setDs, VM.refs_setDs, VM.now_setDs,
    VM.forward_setDs, VM.resolved_setDs, VM.labels_setDs, VM.host_setDs, VM.stdout_setDs, VM.stderr_setDs,
    VM.cur_setDs, VM.tasks_setDs, VM.task_setDs, VM.setDs_setDs, VM.setDs_self, VM.setDs_setTask,
    VM.setDs_setTaskAt, VM.setDs_setErr, VM.setDs_setHandler, VM.setDs_setWl, VM.lastError_setTkn, VM.handler_setTkn,
    VM.wl_setTkn, VM.ds_setTkn, VM.tkn_setTkn, VM.outbuf_setTkn, VM.hldbuf_setTkn, VM.refs_setTkn,
    VM.now_setTkn, VM.forward_setTkn, VM.resolved_setTkn, VM.labels_setTkn, VM.host_setTkn, VM.stdout_setTkn,
    VM.stderr_setTkn, VM.cur_setTkn, VM.tasks_setTkn, VM.task_setTkn, VM.setTkn_setTkn, VM.setTkn_self,
    VM.setTkn_setTask, VM.setTkn_setTaskAt, VM.setTkn_setErr, VM.setTkn_setHandler, VM.setTkn_setWl, VM.setTkn_setDs,
    VM.lastError_setOutbuf, VM.handler_setOutbuf, VM.wl_setOutbuf, VM.ds_setOutbuf, VM.tkn_setOutbuf, VM.outbuf_setOutbuf,
    VM.hldbuf_setOutbuf, VM.refs_setOutbuf, VM.now_setOutbuf, VM.forward_setOutbuf, VM.resolved_setOutbuf, VM.labels_setOutbuf,
    VM.host_setOutbuf, VM.stdout_setOutbuf, VM.stderr_setOutbuf, VM.cur_setOutbuf, VM.tasks_setOutbuf, VM.task_setOutbuf,
    VM.setOutbuf_setOutbuf, VM.setOutbuf_self, VM.setOutbuf_setTask, VM.setOutbuf_setTaskAt, VM.setOutbuf_setErr, VM.setOutbuf_setHandler,
    VM.setOutbuf_setWl, VM.setOutbuf_setDs, VM.setOutbuf_setTkn, VM.lastError_setHldbuf, VM.handler_setHldbuf, VM.wl_setHldbuf,
    VM.ds_setHldbuf, VM.tkn_setHldbuf, VM.outbuf_setHldbuf, VM.hldbuf_setHldbuf, VM.refs_setHldbuf, VM.now_setHldbuf,
    VM.forward_setHldbuf, VM.resolved_setHldbuf, VM.labels_setHldbuf, VM.host_setHldbuf, VM.stdout_setHldbuf, VM.stderr_setHldbuf,
    VM.cur_setHldbuf, VM.tasks_setHldbuf, VM.task_setHldbuf, VM.setHldbuf_setHldbuf, VM.setHldbuf_self, VM.setHldbuf_setTask,
    VM.setHldbuf_setTaskAt, VM.setHldbuf_setErr, VM.setHldbuf_setHandler, VM.setHldbuf_setWl, VM.setHldbuf_setDs, VM.setHldbuf_setTkn,
    VM.setHldbuf_setOutbuf, VM.lastError_setRefs, VM.handler_setRefs, VM.wl_setRefs, VM.ds_setRefs, VM.tkn_setRefs,
    VM.outbuf_setRefs, VM.hldbuf_setRefs, VM.refs_setRefs, VM.now_setRefs, VM.forward_setRefs, VM.resolved_setRefs,
    VM.labels_setRefs, VM.host_setRefs, VM.stdout_setRefs, VM.stderr_setRefs, VM.cur_setRefs, VM.tasks_setRefs,
    VM.task_setRefs, VM.setRefs_setRefs, VM.setRefs_self, VM.setRefs_setTask, VM.setRefs_setTaskAt, VM.setRefs_setErr,
    VM.setRefs_setHandler, VM.setRefs_setWl, VM.setRefs_setDs, VM.setRefs_setTkn, VM.setRefs_setOutbuf, VM.setRefs_setHldbuf,
    VM.lastError_setNow, VM.handler_setNow, VM.wl_setNow, VM.ds_setNow, VM.tkn_setNow, VM.outbuf_setNow,
    VM.hldbuf_setNow, VM.refs_setNow, VM.now_setNow, VM.forward_setNow, VM.resolved_setNow, VM.labels_setNow,
    VM.host_setNow, VM.stdout_setNow, VM.stderr_setNow, VM.cur_setNow, VM.tasks_setNow, VM.task_setNow,
    VM.setNow_setNow, VM.setNow_self, VM.setNow_setTask, VM.setNow_setTaskAt, VM.setNow_setErr, VM.setNow_setHandler,
    VM.setNow_setWl, VM.setNow_setDs, VM.setNow_setTkn, VM.setNow_setOutbuf, VM.setNow_setHldbuf, VM.setNow_setRefs,
    VM.lastError_setForward, VM.handler_setForward, VM.wl_setForward, VM.ds_setForward, VM.tkn_setForward, VM.outbuf_setForward,
    VM.hldbuf_setForward, VM.refs_setForward, VM.now_setForward, VM.forward_setForward, VM.resolved_setForward, VM.labels_setForward,
    VM.host_setForward, VM.stdout_setForward, VM.stderr_setForward, VM.cur_setForward, VM.tasks_setForward, VM.task_setForward,
    VM.setForward_setForward, VM.setForward_self, VM.setForward_setTask, VM.setForward_setTaskAt, VM.setForward_setErr, VM.setForward_setHandler,
    VM.setForward_setWl, VM.setForward_setDs, VM.setForward_setTkn, VM.setForward_setOutbuf, VM.setForward_setHldbuf, VM.setForward_setRefs,
    VM.setForward_setNow, VM.lastError_setResolved, VM.handler_setResolved, VM.wl_setResolved, VM.ds_setResolved, VM.tkn_setResolved,
    VM.outbuf_setResolved, VM.hldbuf_setResolved, VM.refs_setResolved, VM.now_setResolved, VM.forward_setResolved, VM.resolved_setResolved,
    VM.labels_setResolved, VM.host_setResolved, VM.stdout_setResolved, VM.stderr_setResolved, VM.cur_setResolved, VM.tasks_setResolved,
    VM.task_setResolved, VM.setResolved_setResolved, VM.setResolved_self, VM.setResolved_setTask, VM.setResolved_setTaskAt, VM.setResolved_setErr,
    VM.setResolved_setHandler, VM.setResolved_setWl, VM.setResolved_setDs, VM.setResolved_setTkn, VM.setResolved_setOutbuf, VM.setResolved_setHldbuf,
    VM.setResolved_setRefs, VM.setResolved_setNow, VM.setResolved_setForward, VM.lastError_setLabels, VM.handler_setLabels, VM.wl_setLabels,
    VM.ds_setLabels, VM.tkn_setLabels, VM.outbuf_setLabels, VM.hldbuf_setLabels, VM.refs_setLabels, VM.now_setLabels,
    VM.forward_setLabels, VM.resolved_setLabels, VM.labels_setLabels, VM.host_setLabels, VM.stdout_setLabels, VM.stderr_setLabels,
    VM.cur_setLabels, VM.tasks_setLabels, VM.task_setLabels, VM.setLabels_setLabels, VM.setLabels_self, VM.setLabels_setTask,
    VM.setLabels_setTaskAt, VM.setLabels_setErr, VM.setLabels_setHandler, VM.setLabels_setWl, VM.setLabels_setDs, VM.setLabels_setTkn,
    VM.setLabels_setOutbuf, VM.setLabels_setHldbuf, VM.setLabels_setRefs, VM.setLabels_setNow, VM.setLabels_setForward, VM.setLabels_setResolved,
    VM.lastError_setHost, VM.handler_setHost, VM.wl_setHost, VM.ds_setHost, VM.tkn_setHost, VM.outbuf_setHost,
    VM.hldbuf_setHost, VM.refs_setHost, VM.now_setHost, VM.forward_setHost, VM.resolved_setHost, VM.labels_setHost,
    VM.host_setHost, VM.stdout_setHost, VM.stderr_setHost, VM.cur_setHost, VM.tasks_setHost, VM.task_setHost,
    VM.setHost_setHost, VM.setHost_self, VM.setHost_setTask, VM.setHost_setTaskAt, VM.setHost_setErr, VM.setHost_setHandler,
    VM.setHost_setWl, VM.setHost_setDs, VM.setHost_setTkn, VM.setHost_setOutbuf, VM.setHost_setHldbuf, VM.setHost_setRefs,
    VM.setHost_setNow, VM.setHost_setForward, VM.setHost_setResolved, VM.setHost_setLabels, VM.lastError_setStdout, VM.handler_setStdout,
    VM.wl_setStdout, VM.ds_setStdout, VM.tkn_setStdout, VM.outbuf_setStdout, VM.hldbuf_setStdout, VM.refs_setStdout,
    VM.now_setStdout, VM.forward_setStdout, VM.resolved_setStdout, VM.labels_setStdout, VM.host_setStdout, VM.stdout_setStdout,
    VM.stderr_setStdout, VM.cur_setStdout, VM.tasks_setStdout, VM.task_setStdout, VM.setStdout_setStdout, VM.setStdout_self,
    VM.setStdout_setTask, VM.setStdout_setTaskAt, VM.setStdout_setErr, VM.setStdout_setHandler, VM.setStdout_setWl, VM.setStdout_setDs,
    VM.setStdout_setTkn, VM.setStdout_setOutbuf, VM.setStdout_setHldbuf, VM.setStdout_setRefs, VM.setStdout_setNow, VM.setStdout_setForward,
    VM.setStdout_setResolved, VM.setStdout_setLabels, VM.setStdout_setHost, VM.lastError_setStderr, VM.handler_setStderr, VM.wl_setStderr,
    VM.ds_setStderr, VM.tkn_setStderr, VM.outbuf_setStderr, VM.hldbuf_setStderr, VM.refs_setStderr, VM.now_setStderr,
    VM.forward_setStderr, VM.resolved_setStderr, VM.labels_setStderr, VM.host_setStderr, VM.stdout_setStderr, VM.stderr_setStderr,
    VM.cur_setStderr, VM.tasks_setStderr, VM.task_setStderr, VM.setStderr_setStderr, VM.setStderr_self, VM.setStderr_setTask,
    VM.setStderr_setTaskAt, VM.setStderr_setErr, VM.setStderr_setHandler, VM.setStderr_setWl, VM.setStderr_setDs, VM.setStderr_setTkn,
    VM.setStderr_setOutbuf, VM.setStderr_setHldbuf, VM.setStderr_setRefs, VM.setStderr_setNow, VM.setStderr_setForward, VM.setStderr_setResolved,
    VM.setStderr_setLabels, VM.setStderr_setHost, VM.setStderr_setStdout] $[$loc]?)

set_option maxRecDepth 20000 in
open Lean.Parser.Tactic in
/-- Symbolic execution without further lemmas. -/
macro "vm_simp" loc:(location)? : tactic =>
  `(tactic| simp only [M.bind_apply, M.pure_apply, M.ite_apply, getVM_apply, modVM_run, fault_apply,
    liftE_ok, liftE_error, getTask_apply, modTask_apply, getSt_apply, modSt_apply,
    getDs_apply, sPush_apply, sPush2_apply, sPush3_apply, sPop_apply, sPop2_apply,
    sPop3_apply, rPush_apply, rPush2_apply, rPush3_apply, rPop_apply, rPop2_apply,
    rPop3_apply, cPush_apply, cPop_apply, fPush_apply, fPush2_apply, fPush3_apply,
    fPop_apply, fPop2_apply, fPop3_apply, getWl_apply, getRefs_apply, setError_run,
    getError_apply, putToken_run, outBytes_run, wlPush_run, clearStacks_run, VM.task_setTask,
    VM.setTask_setTask, VM.setTask_task, VM.cur_setTask, VM.lastError_setTask, VM.handler_setTask, VM.wl_setTask,
    VM.ds_setTask, VM.tkn_setTask, VM.outbuf_setTask, VM.hldbuf_setTask, VM.refs_setTask, VM.now_setTask,
    VM.forward_setTask, VM.resolved_setTask, VM.labels_setTask, VM.host_setTask, VM.stdout_setTask, VM.stderr_setTask,
    VM.lastError_setErr, VM.handler_setErr, VM.wl_setErr, VM.ds_setErr, VM.tkn_setErr, VM.outbuf_setErr,
    VM.hldbuf_setErr, VM.refs_setErr, VM.now_setErr, VM.forward_setErr, VM.resolved_setErr, VM.labels_setErr,
    VM.host_setErr, VM.stdout_setErr, VM.stderr_setErr, VM.cur_setErr, VM.tasks_setErr, VM.task_setErr,
    VM.setErr_setErr, VM.setErr_self, VM.setErr_setTask, VM.setErr_setTaskAt, VM.lastError_setHandler, VM.handler_setHandler,
    VM.wl_setHandler, VM.ds_setHandler, VM.tkn_setHandler, VM.outbuf_setHandler, VM.hldbuf_setHandler, VM.refs_setHandler,
    VM.now_setHandler, VM.forward_setHandler, VM.resolved_setHandler, VM.labels_setHandler, VM.host_setHandler, VM.stdout_setHandler,
    VM.stderr_setHandler, VM.cur_setHandler, VM.tasks_setHandler, VM.task_setHandler, VM.setHandler_setHandler, VM.setHandler_self,
    VM.setHandler_setTask, VM.setHandler_setTaskAt, VM.setHandler_setErr, VM.lastError_setWl, VM.handler_setWl, VM.wl_setWl,
    VM.ds_setWl, VM.tkn_setWl, VM.outbuf_setWl, VM.hldbuf_setWl, VM.refs_setWl, VM.now_setWl,
    VM.forward_setWl, VM.resolved_setWl, VM.labels_setWl, VM.host_setWl, VM.stdout_setWl, VM.stderr_setWl,
    VM.cur_setWl, VM.tasks_setWl, VM.task_setWl, VM.setWl_setWl, VM.setWl_self, VM.setWl_setTask,
    VM.setWl_setTaskAt, VM.setWl_setErr, VM.setWl_setHandler, VM.lastError_setDs, VM.handler_setDs, VM.wl_setDs,
    VM.ds_setDs, VM.tkn_setDs, VM.outbuf_setDs, VM.hldbuf_setDs, VM.refs_setDs, VM.now_setDs,
    VM.forward_setDs, VM.resolved_setDs, VM.labels_setDs, VM.host_setDs, VM.stdout_setDs, VM.stderr_setDs,
    VM.cur_setDs, VM.tasks_setDs, VM.task_setDs, VM.setDs_setDs, VM.setDs_self, VM.setDs_setTask,
    VM.setDs_setTaskAt, VM.setDs_setErr, VM.setDs_setHandler, VM.setDs_setWl, VM.lastError_setTkn, VM.handler_setTkn,
    VM.wl_setTkn, VM.ds_setTkn, VM.tkn_setTkn, VM.outbuf_setTkn, VM.hldbuf_setTkn, VM.refs_setTkn,
    VM.now_setTkn, VM.forward_setTkn, VM.resolved_setTkn, VM.labels_setTkn, VM.host_setTkn, VM.stdout_setTkn,
    VM.stderr_setTkn, VM.cur_setTkn, VM.tasks_setTkn, VM.task_setTkn, VM.setTkn_setTkn, VM.setTkn_self,
    VM.setTkn_setTask, VM.setTkn_setTaskAt, VM.setTkn_setErr, VM.setTkn_setHandler, VM.setTkn_setWl, VM.setTkn_setDs,
    VM.lastError_setOutbuf, VM.handler_setOutbuf, VM.wl_setOutbuf, VM.ds_setOutbuf, VM.tkn_setOutbuf, VM.outbuf_setOutbuf,
    VM.hldbuf_setOutbuf, VM.refs_setOutbuf, VM.now_setOutbuf, VM.forward_setOutbuf, VM.resolved_setOutbuf, VM.labels_setOutbuf,
    VM.host_setOutbuf, VM.stdout_setOutbuf, VM.stderr_setOutbuf, VM.cur_setOutbuf, VM.tasks_setOutbuf, VM.task_setOutbuf,
    VM.setOutbuf_setOutbuf, VM.setOutbuf_self, VM.setOutbuf_setTask, VM.setOutbuf_setTaskAt, VM.setOutbuf_setErr, VM.setOutbuf_setHandler,
    VM.setOutbuf_setWl, VM.setOutbuf_setDs, VM.setOutbuf_setTkn, VM.lastError_setHldbuf, VM.handler_setHldbuf, VM.wl_setHldbuf,
    VM.ds_setHldbuf, VM.tkn_setHldbuf, VM.outbuf_setHldbuf, VM.hldbuf_setHldbuf, VM.refs_setHldbuf, VM.now_setHldbuf,
    VM.forward_setHldbuf, VM.resolved_setHldbuf, VM.labels_setHldbuf, VM.host_setHldbuf, VM.stdout_setHldbuf, VM.stderr_setHldbuf,
    VM.cur_setHldbuf, VM.tasks_setHldbuf, VM.task_setHldbuf, VM.setHldbuf_setHldbuf, VM.setHldbuf_self, VM.setHldbuf_setTask,
    VM.setHldbuf_setTaskAt, VM.setHldbuf_setErr, VM.setHldbuf_setHandler, VM.setHldbuf_setWl, VM.setHldbuf_setDs, VM.setHldbuf_setTkn,
    VM.setHldbuf_setOutbuf, VM.lastError_setRefs, VM.handler_setRefs, VM.wl_setRefs, VM.ds_setRefs, VM.tkn_setRefs,
    VM.outbuf_setRefs, VM.hldbuf_setRefs, VM.refs_setRefs, VM.now_setRefs, VM.forward_setRefs, VM.resolved_setRefs,
    VM.labels_setRefs, VM.host_setRefs, VM.stdout_setRefs, VM.stderr_setRefs, VM.cur_setRefs, VM.tasks_setRefs,
    VM.task_setRefs, VM.setRefs_setRefs, VM.setRefs_self, VM.setRefs_setTask, VM.setRefs_setTaskAt, VM.setRefs_setErr,
    VM.setRefs_setHandler, VM.setRefs_setWl, VM.setRefs_setDs, VM.setRefs_setTkn, VM.setRefs_setOutbuf, VM.setRefs_setHldbuf,
    VM.lastError_setNow, VM.handler_setNow, VM.wl_setNow, VM.ds_setNow, VM.tkn_setNow, VM.outbuf_setNow,
    VM.hldbuf_setNow, VM.refs_setNow, VM.now_setNow, VM.forward_setNow, VM.resolved_setNow, VM.labels_setNow,
    VM.host_setNow, VM.stdout_setNow, VM.stderr_setNow, VM.cur_setNow, VM.tasks_setNow, VM.task_setNow,
    VM.setNow_setNow, VM.setNow_self, VM.setNow_setTask, VM.setNow_setTaskAt, VM.setNow_setErr, VM.setNow_setHandler,
    VM.setNow_setWl, VM.setNow_setDs, VM.setNow_setTkn, VM.setNow_setOutbuf, VM.setNow_setHldbuf, VM.setNow_setRefs,
    VM.lastError_setForward, VM.handler_setForward, VM.wl_setForward, VM.ds_setForward, VM.tkn_setForward, VM.outbuf_setForward,
    VM.hldbuf_setForward, VM.refs_setForward, VM.now_setForward, VM.forward_setForward, VM.resolved_setForward, VM.labels_setForward,
    VM.host_setForward, VM.stdout_setForward, VM.stderr_setForward, VM.cur_setForward, VM.tasks_setForward, VM.task_setForward,
    VM.setForward_setForward, VM.setForward_self, VM.setForward_setTask, VM.setForward_setTaskAt, VM.setForward_setErr, VM.setForward_setHandler,
    VM.setForward_setWl, VM.setForward_setDs, VM.setForward_setTkn, VM.setForward_setOutbuf, VM.setForward_setHldbuf, VM.setForward_setRefs,
    VM.setForward_setNow, VM.lastError_setResolved, VM.handler_setResolved, VM.wl_setResolved, VM.ds_setResolved, VM.tkn_setResolved,
    VM.outbuf_setResolved, VM.hldbuf_setResolved, VM.refs_setResolved, VM.now_setResolved, VM.forward_setResolved, VM.resolved_setResolved,
    VM.labels_setResolved, VM.host_setResolved, VM.stdout_setResolved, VM.stderr_setResolved, VM.cur_setResolved, VM.tasks_setResolved,
    VM.task_setResolved, VM.setResolved_setResolved, VM.setResolved_self, VM.setResolved_setTask, VM.setResolved_setTaskAt, VM.setResolved_setErr,
    VM.setResolved_setHandler, VM.setResolved_setWl, VM.setResolved_setDs, VM.setResolved_setTkn, VM.setResolved_setOutbuf, VM.setResolved_setHldbuf,
    VM.setResolved_setRefs, VM.setResolved_setNow, VM.setResolved_setForward, VM.lastError_setLabels, VM.handler_setLabels, VM.wl_setLabels,
    VM.ds_setLabels, VM.tkn_setLabels, VM.outbuf_setLabels, VM.hldbuf_setLabels, VM.refs_setLabels, VM.now_setLabels,
    VM.forward_setLabels, VM.resolved_setLabels, VM.labels_setLabels, VM.host_setLabels, VM.stdout_setLabels, VM.stderr_setLabels,
    VM.cur_setLabels, VM.tasks_setLabels, VM.task_setLabels, VM.setLabels_setLabels, VM.setLabels_self, VM.setLabels_setTask,
    VM.setLabels_setTaskAt, VM.setLabels_setErr, VM.setLabels_setHandler, VM.setLabels_setWl, VM.setLabels_setDs, VM.setLabels_setTkn,
    VM.setLabels_setOutbuf, VM.setLabels_setHldbuf, VM.setLabels_setRefs, VM.setLabels_setNow, VM.setLabels_setForward, VM.setLabels_setResolved,
    VM.lastError_setHost, VM.handler_setHost, VM.wl_setHost, VM.ds_setHost, VM.tkn_setHost, VM.outbuf_setHost,
    VM.hldbuf_setHost, VM.refs_setHost, VM.now_setHost, VM.forward_setHost, VM.resolved_setHost, VM.labels_setHost,
    VM.host_setHost, VM.stdout_setHost, VM.stderr_setHost, VM.cur_setHost, VM.tasks_setHost, VM.task_setHost,
    VM.setHost_setHost, VM.setHost_self, VM.setHost_setTask, VM.setHost_setTaskAt, VM.setHost_setErr, VM.setHost_setHandler,
    VM.setHost_setWl, VM.setHost_setDs, VM.setHost_setTkn, VM.setHost_setOutbuf, VM.setHost_setHldbuf, VM.setHost_setRefs,
    VM.setHost_setNow, VM.setHost_setForward, VM.setHost_setResolved, VM.setHost_setLabels, VM.lastError_setStdout, VM.handler_setStdout,
    VM.wl_setStdout, VM.ds_setStdout, VM.tkn_setStdout, VM.outbuf_setStdout, VM.hldbuf_setStdout, VM.refs_setStdout,
    VM.now_setStdout, VM.forward_setStdout, VM.resolved_setStdout, VM.labels_setStdout, VM.host_setStdout, VM.stdout_setStdout,
    VM.stderr_setStdout, VM.cur_setStdout, VM.tasks_setStdout, VM.task_setStdout, VM.setStdout_setStdout, VM.setStdout_self,
    VM.setStdout_setTask, VM.setStdout_setTaskAt, VM.setStdout_setErr, VM.setStdout_setHandler, VM.setStdout_setWl, VM.setStdout_setDs,
    VM.setStdout_setTkn, VM.setStdout_setOutbuf, VM.setStdout_setHldbuf, VM.setStdout_setRefs, VM.setStdout_setNow, VM.setStdout_setForward,
    VM.setStdout_setResolved, VM.setStdout_setLabels, VM.setStdout_setHost, VM.lastError_setStderr, VM.handler_setStderr, VM.wl_setStderr,
    VM.ds_setStderr, VM.tkn_setStderr, VM.outbuf_setStderr, VM.hldbuf_setStderr, VM.refs_setStderr, VM.now_setStderr,
    VM.forward_setStderr, VM.resolved_setStderr, VM.labels_setStderr, VM.host_setStderr, VM.stdout_setStderr, VM.stderr_setStderr,
    VM.cur_setStderr, VM.tasks_setStderr, VM.task_setStderr, VM.setStderr_setStderr, VM.setStderr_self, VM.setStderr_setTask,
    VM.setStderr_setTaskAt, VM.setStderr_setErr, VM.setStderr_setHandler, VM.setStderr_setWl, VM.setStderr_setDs, VM.setStderr_setTkn,
    VM.setStderr_setOutbuf, VM.setStderr_setHldbuf, VM.setStderr_setRefs, VM.setStderr_setNow, VM.setStderr_setForward, VM.setStderr_setResolved,
    VM.setStderr_setLabels, VM.setStderr_setHost, VM.setStderr_setStdout] $[$loc]?)

theorem abortWith_run (c : Ctx) (e : Exn) (s : VM) :
    abortWith c e s = c.ex s.handler (s.aborted e) := by
  vm_simp [abortWith, VM.aborted]

end Verif

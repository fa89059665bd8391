# Formal model of pywasm in Lean 4: design

## Trusted base

* Lean 4.33.0's kernel. No axioms are added. Theorems may depend only on Lean's standard axioms
  `propext`, `Classical.choice`, `Quot.sound`.  No `sorry`, `admit`, `native_decide`, `bv_decide`.
* The correspondence between the Python source (pinned commit in /repo) and the definitions in
  `lean/Verif/Model/*`.  It is by reading: every model definition cites the file and lines it models, and says
  where it simplifies.
* The specification files `lean/Verif/Spec/*`: what we claim the English property means.
* The Python semantics that are assumed (integers, floor division, `&|^~<< >>` on negative integers, slices, slice
  assignment, `to_bytes`/`from_bytes`, `struct`, list `pop`, dictionary lookup, exceptions) as written in
  `lean/Verif/Model/Py.lean`.

## Layout

* `Verif/Model/` – the code, function by function. An exception is a value; the machine state at the moment of the
  exception is kept (pywasm does not roll back), so that what a trap leaves behind is visible.
* `Verif/Spec/` – small independent specifications (bit vectors, byte ranges, structured big-step semantics, ...).
* `Verif/Lemmas/` – auxiliary lemmas.
* `Verif/Props/` – the property theorems, with non-vacuity examples beside each.

## What will be modelled and how each property will be proved

| id | model | proof |
|----|-------|-------|
| C01–C03 | `leb128.py`, all functions, streams as byte lists | induction on the number / on the byte list |
| C04–C08 | `arith.py` I/U for every width, the evaluate cases on 16-byte cells | equality with `BitVec` operations |
| C05 | as above; `i64.div_u` is expected to be wrong for quotients ≥ 2^63 | negation by witness, partial theorem for the rest |
| C09 | `ValInst` from/into | round trip via little-endian bytes |
| C10–C13 | `MemInst`, evaluate_mem_load/save, memory.* cases, Python slices | list take/drop reasoning, invariant by induction on steps |
| C12 | declared maximum 0 is treated as "no maximum" | negation by witness, partial theorem otherwise |
| C14 | `TableInst`, table.* cases | as memories |
| C15, C16, C19 | the whole `evaluate` loop | invariants over steps |
| C17, C18, C22 | the `evaluate` loop, labels, frames, calls | forward simulation from a structured big-step semantics; C22 fails for called functions: negation by witness |
| C20, C23, C53 | `Machine.invocate`, `Runtime.invocate` | unfolding, invariants |
| C21 | `Machine.invocate` keeps stacks after an exception | negation by witness (the caller's call may even run the rest of the trapped function); `Preview1.main` clears them (C48); if the embedder empties the stacks, the reference interpreter preserves coverage of the store in traps too (`Lemmas/RefCov.lean`), so the next call behaves like one in a fresh session |
| C24 | validation rules and well-typed stores as inductive relations (`Spec/Typing.lean`) | type soundness of the reference interpreter by induction on its fuel (`Lemmas/TypeSound.lean`), carried over to the machine by the simulation of C17; valid modules (`Spec/ValidModule.lean`) instantiate to well-typed stores, so by induction every call of a session (`Session`) behaves; the session theorems take what is assumed about the code as a parameter (`CoveredBy`: nothing, no branch to a function label, no `i64.div_u` either); partial because of the two deviations (`Spec/Deviation.lean`: C22 and `i64.div_u` with a large quotient), which a run may come to at a particular state; code with neither instruction is proved without exception |
| C25–C28 | `Limits.suit`, `Machine.allocate`, `Machine.instance`, segment aliasing through a heap of byte arrays | case analysis; C28 negation by witness |
| C29–C31, C59, C60 | `opcode.py`, `Inst.from_reader`, `Expr`, `ModuleDesc.from_reader` and all readers it calls (`Model/Opcode.lean`, `Model/Decode.lean`) | a logic `Reads` for readers and induction on the encoding relations of `Spec/Binary.lean` (the grammar of the specification, with its opcode table `Spec/Opcode.lean`); C31, C60 negations by witness |
| C32, C33 | SIMD cases of evaluate | lane-wise lemma schema |
| C34–C38, C57, C58 | float cases; Python floats as 64-bit patterns, exact integer arithmetic plus one rounding function (`PyFloat.lean`) | rounding proved to be to nearest even; f32 operations computed in double proved to round only once (midpoint separation); C34, C35, C36, C38 negations by witness with partial theorems |
| C69 | float lane cases of evaluate | tables of scalar counterparts (`Spec/SimdFloat.lean`), one lane schema per shape; negation by witness for signalling NaNs |
| C70 | evaluate_call, invocate with host functions as interaction trees (`Model/Reentry.lean`) | negation by witness and in general (the inner invocation empties the stacks); refinement to the machine without callbacks |
| C71, C72, C73 | the path calls of `Preview1` | one relation (`Asks`, `Spec/WasiFs.lean`) from calls to the host operations they stand for; one run lemma for all of them; error tables by cases; flags bit by bit |
| C74, C75, C76 | fd_filestat_get, clocks, random_get, offset and size calls | exact result state for every host answer; negations by witness or for all states |
| C77 | sock_* | invariant over all histories (no entry is a socket); exact result state for sockets the embedder adds |
| C78 | `Machine.instance` with `allocate`, segments and start (`Model/Instance.lean`) | exact pre- and postconditions of every loop (`Lemmas/Link.lean`, `Lemmas/Init*.lean`), including why it raises, give equality with one function (`prepared`, `Spec/Instantiate.lean`); the start function by the refinement behind C17 and C24 |
| C79 | `Runtime.instance_from_file` (`Model/File.lean`) | C30, C78 and C24 put together |
| C80 | `main_wasi`, `main_wasm` of `__main__.py` with Python's `int`, `bytearray.fromhex` and `str.split` (`Model/Cli.lean`) | parsers against digit/byte specifications by induction; C79 and C81 composed with the option handling |
| C89 | the option declarations and the dispatch of `__main__.py`, with `argparse.parse_args` for them (`Model/Args.lean`) | the words of a command line as a grammar (`Spec/CommandLine.lean`), and an equivalence: classification of one word, then induction on the scan |
| C90, C91 | the methods of `MemInst`, `Runtime.exported_memory`, `exported_global` | slices of byte lists against `Spec.range` and `patch`; composed with the load and store theorems (C10, C11) and the index spaces of an instance (C26); negations for all memories |
| C92 | all calls of `Preview1` | the enumeration of the interface and a table of the errors of each call as specification (`Spec/WasiErrno.lean`); a predicate on results that is closed under the steps of a `do` block |
| C93, C94 | `fd_pread`, `fd_pwrite`, `fd_read`, `fd_write`, `fd_seek`, `fd_tell` | the history of host calls is genuine (an invariant of all calls); what a regular file answers, and a file with an offset, as specification (`Spec/WasiHistory.lean`); induction over the buffers, and a simulation of the calls by the operations on the file; negation for an empty buffer |
| C95 | the constructors and accessors of `ValInst` | round trips from the lemmas on little-endian integers and on lanes; ints given for floats from the theorem that the rounding used is to nearest, ties to even |
| C96 | `into_all`, `from_all` | for every value, by cases on the type, from C09 and the lemmas that little-endian reading is injective; negation for signalling `f32` NaNs; exactly which values can be returned |
| C81 | `Preview1.main` over `Preview1.bind`'s host functions (`Model/WasiHost.lean`) | every WASI call keeps memory limits and sizes (`Lemmas/WasiShape.lean`), so the WASI functions are hosts the session theorems of C24 allow; `main`'s clauses by cases |
| C83 | `evaluate` cases of all float instructions, scalar and vector | the specification as a relation (`Spec/FloatOps.lean`), the wrong operands as a list (`Spec/FloatDev.lean`), and an equivalence per instruction |
| C84 | `Runtime.instance_from_file`, `Runtime.invocate` and everything below | the reference interpreter takes a numeric semantics as a parameter; monotonicity in it (stuck, or the same outcome) and existence of one that conforms to the specification (`Spec/Conforming.lean`) |
| C85 | `log.py` and every call of `debugln`: the decoder and the machine once more, with what they print (`Model/LogDecode.lean`, `Model/LogRun.lean`), and the `__repr__` methods | a relation between a run with and a run without printing (`Tracks`, `RTracks`), function by function; negation by witness |
| C86 | `Expr.disasm`, the `__repr__` methods, `ModuleDesc.from_reader` | the lines as a specification (`Spec/Listing.lean`, `Spec/Mnemonic.lean`) and induction on the encoding; negation by witness |
| C87 | `evaluate`, `Machine.invocate`, `Runtime.invocate` with `debugln` | induction on the number of steps |
| C88 | the whole interpreter and `Machine.instance`, run in two stores that agree on a part (`Spec/Isolation.lean`) | a relational program logic with one lemma for each instruction (`Lemmas/Isolation.lean`), a unary one for instantiation; a forged reference by witness |
| C82 | the whole decoder (`Model/Decode.lean`) | an equivalence per reader between what it accepts and a grammar (`Spec/Accepted.lean`: the rules of the specification and those marked *loose*); soundness by induction on the recursion limit and the loop counters; negation by witness |
| C39, C45, C47, C61, C67, C68 | the descriptor table of `Preview1` (`Model/WasiTypes.lean`, `Model/Wasi.lean`) and the host history | every call classified by what it does to the table (`Change`), invariants by induction on call histories (`Reach`) |
| C40, C41, C50, C63 | `help_badf`, `help_perm`, `path_open`, `fd_fdstat_*`, `fd_prestat_*` | case analysis per call; negations by witness |
| C42 | `help_escp`, `posixpath.normpath/join/abspath` (`Model/PyPath.lean`) | reasoning about path components; negations by witness |
| C43, C44, C49, C56 | the calls that write guest memory | weakest-precondition style lemmas on byte ranges; `Stays` for all 46 calls |
| C46, C54, C62, C64 | `fd_seek`, `*_set_times`, `fd_fdstat_set_flags`, `poll_oneoff` | equations for the host calls made; negations by witness |
| C48, C65, C66 | `Preview1.bind`, `Preview1.main` as host functions of the machine (`Model/WasiHost.lean`) | exceptions classified (`Own`, `NoQuit`), simulation of `Runtime.invocate` |
| C51, C52 | evaluate cases | unfolding |
| C55 | `evaluate`'s `range(1 << 32)` | the model keeps the bound as a parameter; negation for any finite bound |

## Where the code and the property disagree

Each of these is proved about the model (theorem names end in `_false`), and the part that does hold is proved as a
`_partial` theorem.

* C05: `i64.div_u` raises `OverflowError` when the quotient is at least 2^63 (`i64` conversion is signed).
* C12, C14, C25: a declared maximum of 0 is recorded like "no maximum".
* C21: after a trap the three stacks are not cleared, and the next invocation starts on top of them. It can return normally after having executed the rest of the trapped function (`C21_trapped_code_goes_on_false`).
* C22: a branch to the label of a *called* function pops the caller's label.
* C23: the kind of an export is not looked at by `Runtime.invocate`.
* C28: `data.drop` (also the implicit one after copying an active segment) clears the `bytearray` that the instance
  shares with the decoded module, so other instances of the same decoded module lose the segment.

* C34: `f32.copysign` goes through a double, which quiets a signalling NaN.
* C35: `min`/`max` of two zeros of different sign return the first operand, whatever its sign.
* C36: `ceil`, `floor`, `trunc`, `nearest` go through a Python `int`, so a zero result is always `+0`.
* C38: `f32.convert_i64_s/u` round to double and then to single; large integers may round the wrong way.

* C29: Python's recursion limit bounds the nesting of blocks the decoder can read (`C29_recursion_limit`).
* C31: the loop over the sections runs 32 times; what follows the 32nd section is ignored.
* C82: files that encode no module are accepted; `Spec/Accepted.lean` lists all of them. Besides C31 and C60: unknown sections, sections
  repeated or out of order, a code section with fewer entries than functions, code entries with a larger size than they need, a wrong data
  count, `else` outside `if` or repeated, any byte for the memory of `memory.size`/`memory.grow` and for the type of `ref.null`, any
  alignment for lane accesses and `load32_zero`/`load64_zero`, negative block types, any flag byte for limits.
* C60: a data segment longer than the rest of its section is cut, and bytes left over in a section are ignored.

* C40: `path_open` with CREAT does not ask for PATH_CREATE_FILE; `fd_pread` and `fd_pwrite` do not ask for FD_SEEK.
* C41: `path_open` gives the new descriptor the rights in its arguments, also those its directory lacks.
* C42: the escape check compares names with `startswith`, so `../srv2/x` leaves `/srv`; all path calls but `path_open`
  compare guest names, so nothing is an escape when the directory is preopened as `/`.
* C43, C56: sizes of arguments, variables and directory entries are counted in characters, not UTF-8 bytes.
  `wasi_args_get_cut` says exactly what is stored instead: every string cut to as many bytes as it has characters, and the rest of its
  encoding written over what follows.
* C46: `fd_seek` calls `lseek(fd, 0, whence)` first, which moves the offset even if the check after it fails.
* C47: `fd_renumber(fd, fd)` closes the descriptor.
* C48: without `return_on_exit`, `SystemExit` passes `except Exception` and the stacks are not cleared.
* C49: pointers arrive as signed numbers and a `put` beyond the end makes the memory longer than its pages.
* C50: `fd_prestat_get` succeeds for descriptors 0, 1 and 2.
* C54: MTIM_NOW reads the clock named by the guest's time argument; NONBLOCK is refused by a mask that repeats APPEND.
* C61: `main` closes host descriptors but leaves the entries open for the guest.
* C62: for absolute times the wait is the clock minus the time; the clock id is read with its padding.
* C63: `fd_fdstat_get` raises for rights given as negative numbers.
* C68: character devices opened by `path_open` and files renumbered onto 0, 1, 2 are never closed.
* C83: `f64.min`, `f64.max` and the `f64` rounding instructions return a signalling NaN as it is, where the specification asks for an
  arithmetic NaN.  With C34, C35, C36, C38 and C69 these are all operands for which a float result is wrong (`C83_numeric`).
  C84 (`C84_wrong`): a program that returns `f32.min(+0, -0)` returns `+0`, which the specification does not allow.
* C69: `f32x4.abs`, `neg`, `pmin` and `pmax` convert lanes to double and back, which quiets signalling NaNs.
* C70: `Machine.invocate` asserts that the stacks of the machine are empty at its end, and host functions run on the same stacks.  A
  host function that calls back therefore makes the invocation that called it raise, always; if it catches what the callback raises,
  the invocation may return a wrong result (`C70_caught_callback_false`).
* C71: `path_readlink` counts characters where it should count bytes, so a target that is not ASCII is stored beyond the end of the
  buffer.  `path_filestat_set_times` on a link takes the time that is not set from the link's target.
* C72: the path calls have `except` clauses for a few errors only; all others, among them a missing file for `path_unlink_file`, are
  raised and end the guest.  `EACCES` is returned as `PERM`.
* C73: `path_open` gives the host no descriptor flag but `APPEND`.
* C74: `fd_filestat_get` asks for the attributes by the name the file was opened with.
* C75: `clock_time_get` and `clock_res_get` succeed for clocks that do not exist.
* C76: `fd_datasync` does nothing; `fd_allocate` does not look at how much was written.
* C77: `sock_accept` raises `TypeError` whenever it accepts; `sock_recv` reports every message shorter than the buffers as truncated.
* C85: with logging on, a module or a run with a number of more than 4300 digits raises `ValueError` where it does not without.
* C86: the listing of an `if` leaves out the `else` branch, and the line of a function body names type 0 instead of the function's.
* C88: after a called function has branched to its own label (C22), its caller runs with the callee's locals.  A valid module
  without imports can so read an `i64` parameter where validation has seen a `funcref` local, and `table.fill`, unlike
  `table.set` and `table.grow`, does not check the type of what it writes.  `call_indirect` then calls any function of the store:
  another instance's, too.
* C90: `MemInst.put` and the `put_*` methods assign a slice of a `bytearray`, so a write across or beyond the end of a memory
  does not raise: it makes the memory longer than its pages.  Negative addresses count from the end; `get` outside returns fewer bytes.
* C93: an empty buffer stops `fd_read` and `fd_pread`; if it is the first, 0 bytes are reported, as at the end of the file.
* C96: a null reference cannot be returned to the embedder (`into_ref` asserts), and an `f32` signalling NaN
  passes through a Python float and comes back quiet.

## Modelling decisions

* WASI: the operating system is an arbitrary function from the history of host calls and the present call to a result or
  an exception (`Os`); it is deterministic given the history, which loses nothing since theorems quantify over all of
  them.  Where a property needs a host that behaves, the theorem says so: `Fresh` (an open descriptor number is not
  handed out again), `Bounded` and `AsciiNames` (at most the bytes asked for, ASCII names where a call asks for names), `Proper` (system calls do not raise the exceptions of `proc_exit`), `ClosesFine`,
  `Steady` (stat does not fail).  An example of a host that meets the assumption stands beside the theorems.
* WASI: file names are lists of code points; `os.fsencode` and surrogate escapes are not modelled.  `time`, `random`,
  `select`, `os.*` are host calls.  A pipe (`File.pipe`) is an opaque object of the host.  The `Preview1` object is part
  of the store (`Store.wasi`), one per runtime; a guest call works on the memory 0 of its caller's module.
* WASI sockets: `socket.fromfd` duplicates the descriptor (`Sys.sockDup`); that Python closes the duplicate when the
  call has returned is not recorded as a host call.  `fd_allocate` by more bytes than Python can allocate raises instead of
  writing; the model writes (`MemoryError` is not modelled).
* The platform (`platform.system()`) decides only which error numbers are translated (`Os.plat`), as in the code.

* Decoder: a file is a list of bytes; Python's recursion limit is a parameter `lim` (nested `Inst.from_reader` calls
  left), the frames of helper functions called by the innermost one are not counted.
  The decoder makes the text of every instruction of a function body, printed or not (`Model/Disasm.lean`), and CPython
  refuses to format an integer of more than 4300 decimal digits (a limit that the user can change; the model has the
  default), so a body with such an immediate is refused unless it stands behind an `else` (C82).
  `MemoryError` is not modelled, here or elsewhere.
  UTF-8 decoding is Lean's `String.fromUTF8?`, trusted to accept what CPython's strict decoder accepts.

* Python floats (`Model/PyFloat.lean`): bit patterns of C doubles; `+ - * / sqrt`, `float(int)`, `int(float)`, `struct`
  and `ctypes` conversions compute exactly over integers and round once with `roundMag`.  The trusted claim is that
  CPython on an IEEE 754 platform does this; `Spec/Float.lean` states rounding independently (`Nearest`) and the proofs
  connect the two.  Which NaN comes out follows x86-64; only C83, `C34_copysign_quiets` and `C69_quiets_false` depend on it (float/double casts
  and arithmetic quiet signalling NaNs).
* Numeric instructions live in `Model/{IntOps,FloatOps,SimdOps}.lean` as programs on the operand stack and are
  dispatched by `NumOps.lean`; `Machine.lean` embeds them.  The structured reference interpreter takes the meaning of
  float and float-vector instructions from the model (`numSem`, `fromModel`); their own properties are C34–C38, C57, C58, C69.
  C83 compares them with the specification, and C84 restates the main theorems for a reference interpreter with numeric results the
  specification allows.

* Logging (`Model/LogDecode.lean`, `Model/LogRun.lean`): a printed line is the text after the time stamp and `pywasm:`.  `print` is
  assumed to succeed; that it raises if the terminal cannot encode a name is not modelled.  If making the text raises, nothing of the line
  is printed.  How Python prints a float is a parameter (`fr`).

* Command line: the declarations of the options and the dispatch (`Model/Args.lean`), with `argparse` modelled after CPython 3.11.10 for these declarations (compared with the real `argparse` on 9000 generated command lines; other Python versions differ in how they treat `--`), and `main_wasi` and `main_wasm` (`Model/Cli.lean`). Not modelled: the texts of the help and of the error messages.
  Python's `int` is modelled on ASCII strings, `float` is an arbitrary function.

* The interpreter loop's `range(1 << 32)` is a parameter `N` of the model (`evaluate H N`).
* Two heaps are added to the store: module instance objects (`mods`) and segment `bytearray`s (`bufs`), because Python
  shares those objects by reference.
* Host functions are arbitrary partial functions on the store; theorems that need it assume that they only extend the
  store (`HostExtends`).  Host functions that re-enter
  `invocate` are modelled in `Model/Reentry.lean` (C70), where invocations with callbacks are shown never to return unless the host function
  catches what its callback raises, and the others to be those of `Model/Machine.lean`.  A host function that edits the machine's stacks is
  not modelled.
* The reference interpreter (`Spec/Ref.lean`) keeps two conventions of pywasm that the specification leaves to the
  embedder or that are covered by other properties: `memory.grow` fails above 1024 pages, and a recorded maximum of 0
  means none.
* Names are Lean strings (Python `str`); UTF-8 decoding of names is part of the decoder model.

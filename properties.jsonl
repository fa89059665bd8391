{"id": "C01", "title": "Unsigned LEB128 round trip", "statement": "For every natural number n, leb128.u.decode(leb128.u.encode(n)) == n; reading a stream that starts with encode(n) returns (n, len(encode(n))) and leaves exactly the rest of the stream unread. encode raises for negative input.", "quantifier": "all natural numbers n and all byte suffixes", "why_tests_cant": "The domain is unbounded (or 2^64 and larger per operand); tests sample it.", "anchors": ["pywasm/leb128.py:_U.encode", "pywasm/leb128.py:_U.decode", "pywasm/leb128.py:_U.decode_reader"]}
{"id": "C02", "title": "Signed LEB128 round trip", "statement": "For every integer n, leb128.i.decode(leb128.i.encode(n)) == n, and the reader variant returns n, consumes exactly the encoding and leaves the rest.", "quantifier": "all integers n and all byte suffixes", "why_tests_cant": "The domain is unbounded (or 2^64 and larger per operand); tests sample it.", "anchors": ["pywasm/leb128.py:_I.encode", "pywasm/leb128.py:_I.decode", "pywasm/leb128.py:_I.decode_reader"]}
{"id": "C03", "title": "LEB128 decoding is total on terminated groups and the encoding is canonical", "statement": "The reader variants accept any run of continuation bytes followed by a terminator, of any length, and return the base-128 value of the low seven bits of the bytes (sign-extended from bit 6 of the last byte for the signed form); they fail exactly when the stream ends before a terminator. encode produces a terminated group of minimal length: no other terminated group decoding to the same value is shorter.", "quantifier": "all byte streams and all integers", "why_tests_cant": "The domain is unbounded (or 2^64 and larger per operand); tests sample it.", "anchors": ["pywasm/leb128.py:_U", "pywasm/leb128.py:_I"]}
{"id": "C04", "title": "Integer add, sub, mul, and, or, xor, shifts and rotates are exact two's-complement operations", "statement": "i32/i64 add, sub, mul, and, or, xor, shl, shr_s, shr_u, rotl, rotr push the value the WebAssembly specification defines on N-bit vectors, for every pair of operand bit patterns, and never trap.", "quantifier": "all pairs of 32-bit and 64-bit operands (any higher garbage in the 16-byte stack cells)", "why_tests_cant": "The domain is unbounded (or 2^64 and larger per operand); tests sample it.", "anchors": ["pywasm/arith.py:I", "pywasm/arith.py:U", "pywasm/core.py:Machine.evaluate"]}
{"id": "C05", "title": "Integer division and remainder", "statement": "i32/i64 div_s, div_u, rem_s, rem_u give the truncated quotient/remainder the specification defines, and trap exactly when the divisor is zero or a signed quotient is not representable.", "quantifier": "all pairs of 32-bit and 64-bit operands", "why_tests_cant": "The domain is unbounded (or 2^64 and larger per operand); tests sample it.", "anchors": ["pywasm/arith.py:I.div", "pywasm/arith.py:I.rem", "pywasm/arith.py:U.div", "pywasm/core.py:Machine.evaluate (i64_div_u)"]}
{"id": "C06", "title": "clz, ctz, popcnt", "statement": "i32/i64 clz, ctz and popcnt count leading zeros, trailing zeros and one bits of the operand, giving N for clz/ctz of zero.", "quantifier": "all 32-bit and 64-bit operands", "why_tests_cant": "The domain is unbounded (or 2^64 and larger per operand); tests sample it.", "anchors": ["pywasm/arith.py:U.clz", "pywasm/arith.py:U.ctz", "pywasm/arith.py:U.popcnt"]}
{"id": "C07", "title": "Integer comparisons", "statement": "eqz, eq, ne, lt_s, lt_u, gt_s, gt_u, le_s, le_u, ge_s, ge_u on i32/i64 push i32 1 or 0 according to the signed or unsigned order of the operands.", "quantifier": "all pairs of 32-bit and 64-bit operands", "why_tests_cant": "The domain is unbounded (or 2^64 and larger per operand); tests sample it.", "anchors": ["pywasm/core.py:Machine.evaluate (i32_eqz..i64_ge_u)"]}
{"id": "C08", "title": "Integer width conversions", "statement": "i32.wrap_i64, i64.extend_i32_s/u, i32.extend8_s/16_s, i64.extend8_s/16_s/32_s and the reinterpret instructions give the truncation, sign extension, zero extension or same bit pattern the specification defines.", "quantifier": "all operands", "why_tests_cant": "The domain is unbounded (or 2^64 and larger per operand); tests sample it.", "anchors": ["pywasm/core.py:Machine.evaluate (conversions)"]}
{"id": "C09", "title": "Host values survive the trip through the guest representation", "statement": "Every host integer in the range of i32/i64 (signed), and every 16-byte vector and reference address in range, converted to a guest value and back is unchanged; out-of-range integers raise instead of being silently truncated; a guest value read as signed or unsigned differs only by the two's-complement reinterpretation.", "quantifier": "all host integers, byte strings and value types", "why_tests_cant": "The domain is unbounded (or 2^64 and larger per operand); tests sample it.", "anchors": ["pywasm/core.py:ValInst.from_all", "pywasm/core.py:ValInst.into_all"]}
{"id": "C10", "title": "Loads are bounds-checked and little-endian", "statement": "A load instruction of n bytes at address base+offset traps exactly when base+offset+n exceeds the current byte length of the memory; otherwise it pushes the little-endian value of those n bytes (extended as the opcode says) and changes nothing else. The effective address is computed without wrap-around.", "quantifier": "all memories, all 32-bit bases, all offsets, every load opcode", "why_tests_cant": "The domain is unbounded (or 2^64 and larger per operand); tests sample it.", "anchors": ["pywasm/core.py:Machine.evaluate_mem_load", "pywasm/core.py:MemInst.get"]}
{"id": "C11", "title": "Stores are bounds-checked, exact and local", "statement": "A store instruction of n bytes traps exactly when base+offset+n exceeds the byte length, leaving memory unchanged; otherwise exactly those n bytes become the low n bytes of the operand, every other byte and the length are unchanged, and a following load of the same width and address returns the stored value.", "quantifier": "all memories, bases, offsets, values, every store opcode", "why_tests_cant": "The domain is unbounded (or 2^64 and larger per operand); tests sample it.", "anchors": ["pywasm/core.py:Machine.evaluate_mem_save", "pywasm/core.py:MemInst.put"]}
{"id": "C12", "title": "memory.grow keeps size, length, limits and contents consistent", "statement": "After any history of guest operations on a memory its byte length is exactly 65536 times its reported size, the size never shrinks and never exceeds its declared maximum or 65536 pages. memory.grow either returns the old size, keeps the old contents and zero-fills the new pages, or returns -1 and changes nothing.", "quantifier": "all histories of guest memory operations", "why_tests_cant": "The domain is unbounded (or 2^64 and larger per operand); tests sample it. The property is about every reachable state.", "anchors": ["pywasm/core.py:MemInst.grow", "pywasm/core.py:Machine.evaluate (memory_grow)"]}
{"id": "C13", "title": "Bulk memory operations", "statement": "memory.copy behaves like memmove (also when the ranges overlap), memory.fill and memory.init write exactly the addressed range; each traps exactly when a range is out of bounds and then changes nothing; data.drop makes the segment behave as an empty one for good.", "quantifier": "all memories, ranges, segments", "why_tests_cant": "The domain is unbounded (or 2^64 and larger per operand); tests sample it.", "anchors": ["pywasm/core.py:Machine.evaluate (memory_copy, memory_fill, memory_init, data_drop)"]}
{"id": "C14", "title": "Table operations", "statement": "table.get/set/size/grow/fill/copy/init and elem.drop implement the specification's table semantics: bounds-checked exactly, overlapping copies as if through a buffer, failed operations change nothing, grow respects the declared maximum.", "quantifier": "all tables, ranges, element segments", "why_tests_cant": "The domain is unbounded (or 2^64 and larger per operand); tests sample it.", "anchors": ["pywasm/core.py:TableInst", "pywasm/core.py:Machine.evaluate (table_*)"]}
{"id": "C15", "title": "Immutable globals never change", "statement": "Whatever sequence of guest instructions runs, successful or trapping, the value of a global declared const is the one it was instantiated with; global.set on it traps.", "quantifier": "all programs and execution lengths", "why_tests_cant": "Every reachable state of every program.", "anchors": ["pywasm/core.py:Machine.evaluate (global_set)", "pywasm/core.py:GlobalInst"]}
{"id": "C16", "title": "Store addresses are stable", "statement": "Running guest code never removes, replaces or reorders functions, memories, tables, globals or segments in the store: an address stays valid, functions are unchanged, and a memory/table/global keeps its declared type.", "quantifier": "all programs and execution lengths", "why_tests_cant": "Every reachable state of every program.", "anchors": ["pywasm/core.py:Store", "pywasm/core.py:Machine.evaluate"]}
{"id": "C17", "title": "Structured control flow", "statement": "Executing any body built from block, loop, if/else, br, br_if, br_table, return, call and other instructions on the interpreter's label stack produces the results, store and traps of the specification's structured big-step semantics, including which values a branch carries and which it discards.", "quantifier": "all programs, nesting depths, operand stacks and terminating executions", "why_tests_cant": "Unbounded program shapes and nesting.", "anchors": ["pywasm/core.py:Machine.evaluate", "pywasm/core.py:Machine.evaluate_br", "pywasm/core.py:Machine.evaluate_call"]}
{"id": "C18", "title": "Calls isolate locals and pass arguments in order", "statement": "A called function sees exactly its parameters in order followed by zeroed locals; when it returns by falling off its end or by return, the caller continues with its own locals unchanged and its operand stack extended by exactly the results in order.", "quantifier": "all callers, callees, arguments", "why_tests_cant": "Unbounded.", "anchors": ["pywasm/core.py:Machine.evaluate_call"]}
{"id": "C19", "title": "Call depth is bounded", "statement": "At no point of any execution do more than 1024 frames exist; a call that would exceed it traps, so unbounded guest recursion ends in a trap and not in exhaustion of host memory or the host stack.", "quantifier": "all programs and execution lengths", "why_tests_cant": "Every reachable state.", "anchors": ["pywasm/core.py:Machine.evaluate_call"]}
{"id": "C20", "title": "A successful invocation leaves the machine clean and returns as many values as declared", "statement": "When Runtime.invocate returns normally, frame, label and value stacks are empty and the number of results is the result arity of the function type.", "quantifier": "all modules, functions, arguments", "why_tests_cant": "Every terminating execution.", "anchors": ["pywasm/core.py:Machine.invocate", "pywasm/core.py:Runtime.invocate"]}
{"id": "C21", "title": "A trap does not poison later invocations", "statement": "After an invocation traps, a later invocation of any function behaves as it would on a machine that had not trapped (apart from store effects).", "quantifier": "all programs that trap, all later calls", "why_tests_cant": "Depends on the state left at every possible trap point.", "anchors": ["pywasm/core.py:Machine.invocate", "pywasm/wasi.py:Preview1.main"]}
{"id": "C22", "title": "Branching to the function's own label returns from the function", "statement": "br, br_if or br_table to the outermost label of a called function has the same effect as return.", "quantifier": "all called functions and operand stacks", "why_tests_cant": "Unbounded programs; depends on frame bookkeeping at every depth.", "anchors": ["pywasm/core.py:Machine.evaluate_br", "pywasm/core.py:Machine.evaluate_call"]}
{"id": "C23", "title": "The host call boundary checks arity and converts every argument", "statement": "Runtime.invocate runs guest code only if the export exists, is a function and the number of arguments equals the number of parameters; each argument is converted by its parameter type, each result by its type; otherwise it raises before any guest code runs and the store is unchanged.", "quantifier": "all exports, argument lists", "why_tests_cant": "Unbounded.", "anchors": ["pywasm/core.py:Runtime.invocate", "pywasm/core.py:ValInst.from_all"]}
{"id": "C24", "title": "Valid programs do not go wrong", "statement": "Code accepted by the WebAssembly validation rules never fails for a reason other than a WebAssembly trap: operand pops never underflow, local/global/function/table/memory indices resolve, branches find their label.", "quantifier": "all validated functions, arguments, stores", "why_tests_cant": "Type soundness: all programs.", "anchors": ["pywasm/core.py:Machine.evaluate"]}
{"id": "C25", "title": "Import matching", "statement": "Instantiation accepts an import exactly when an extern with the same kind is supplied and its type matches: equal function and global types, equal table element types, limits at least the declared minimum and, if a maximum is declared, a present and not larger maximum. Otherwise it raises.", "quantifier": "all modules and supplied externs", "why_tests_cant": "All combinations of limits and types.", "anchors": ["pywasm/core.py:Limits.suit", "pywasm/core.py:Machine.instance", "pywasm/core.py:Machine.allocate"]}
{"id": "C26", "title": "Exports resolve to what the module declared", "statement": "After instantiation every export name resolves to the entity at the declared index in the index space in which imports precede definitions; lookups by name return the first export of that name and fail if there is none.", "quantifier": "all modules", "why_tests_cant": "Unbounded index spaces.", "anchors": ["pywasm/core.py:Machine.allocate", "pywasm/core.py:Runtime.invocate", "pywasm/core.py:Runtime.exported_memory", "pywasm/core.py:Runtime.exported_global"]}
{"id": "C27", "title": "Instantiation initialises in order and only within bounds", "statement": "Globals get the value of their initialiser, active element and data segments are copied to the evaluated offsets in order, a segment that does not fit makes instantiation raise, and the start function runs last.", "quantifier": "all modules", "why_tests_cant": "Unbounded.", "anchors": ["pywasm/core.py:Machine.instance"]}
{"id": "C28", "title": "Instances of one decoded module are independent", "statement": "Instantiating the same ModuleDesc twice gives instances that start from the same initial memory contents and segments.", "quantifier": "all modules and execution histories of the first instance", "why_tests_cant": "Depends on the history of the first instance.", "anchors": ["pywasm/core.py:Machine.allocate", "pywasm/core.py:DataDesc", "pywasm/core.py:Machine.evaluate (data_drop)"]}
{"id": "C29", "title": "The instruction decoder inverts the binary encoding", "statement": "Decoding the specification's binary encoding of any instruction sequence (all instructions and immediates, any padding of the integers, nesting within Python's recursion limit) yields exactly that sequence and consumes exactly those bytes.", "quantifier": "all instruction trees and byte suffixes", "why_tests_cant": "Unbounded nesting and immediates.", "anchors": ["pywasm/core.py:Inst.from_reader", "pywasm/core.py:Expr.from_reader"]}
{"id": "C30", "title": "The module decoder inverts the binary encoding", "statement": "Decoding the specification's binary encoding of any module with every kind of section yields exactly that module's types, imports, functions, tables, memories, globals, exports, start, element, code and data entries; a wrong magic or version is rejected.", "quantifier": "all modules", "why_tests_cant": "Unbounded.", "anchors": ["pywasm/core.py:ModuleDesc.from_reader"]}
{"id": "C31", "title": "No section is ignored", "statement": "Every section present in the binary, in particular every non-custom section after any number of custom sections, is decoded.", "quantifier": "all modules with any number of custom sections", "why_tests_cant": "Unbounded number of sections.", "anchors": ["pywasm/core.py:ModuleDesc.from_reader"]}
{"id": "C32", "title": "Integer SIMD instructions act lane-wise", "statement": "Each i8x16/i16x8/i32x4/i64x2 arithmetic, saturating, comparison, shift, min/max, avgr, abs, neg, widening, narrowing, extend, extmul, dot, all_true, bitmask, splat, extract and replace instruction computes, lane by lane, the scalar function the specification assigns.", "quantifier": "all pairs of 128-bit vectors and shift counts", "why_tests_cant": "The domain is unbounded (or 2^64 and larger per operand); tests sample it.", "anchors": ["pywasm/core.py:Machine.evaluate (SIMD)"]}
{"id": "C33", "title": "v128 bitwise, shuffle and swizzle", "statement": "v128 and/andnot/or/xor/not/bitselect/any_true act bitwise on 128 bits; i8x16.shuffle and swizzle pick the bytes the specification says.", "quantifier": "all 128-bit vectors, all lane selectors", "why_tests_cant": "The domain is unbounded (or 2^64 and larger per operand); tests sample it.", "anchors": ["pywasm/core.py:Machine.evaluate (v128_*)"]}
{"id": "C34", "title": "Bit-level float operations preserve payloads", "statement": "f32/f64 abs, neg, copysign and reinterpret, const, load and store change at most the sign bit: NaN payloads and signed zeros survive unchanged.", "quantifier": "all 32-bit and 64-bit patterns", "why_tests_cant": "The domain is unbounded (or 2^64 and larger per operand); tests sample it.", "anchors": ["pywasm/core.py:Machine.evaluate (f32_abs, f32_neg, f64_abs, f64_neg, copysign)"]}
{"id": "C35", "title": "Float min and max", "statement": "min/max propagate NaN and order -0 below +0 as the specification requires.", "quantifier": "all pairs of floats", "why_tests_cant": "The domain is unbounded (or 2^64 and larger per operand); tests sample it.", "anchors": ["pywasm/arith.py:F64.min", "pywasm/arith.py:F64.max"]}
{"id": "C36", "title": "ceil, floor, trunc, nearest", "statement": "Rounding instructions return the specified integral float, keeping NaN, infinities and the sign of zero results.", "quantifier": "all floats", "why_tests_cant": "The domain is unbounded (or 2^64 and larger per operand); tests sample it.", "anchors": ["pywasm/core.py:Machine.evaluate (f32_ceil..f64_nearest)"]}
{"id": "C37", "title": "Float to integer truncation", "statement": "iNN.trunc_fMM_s/u return the truncated value and trap exactly on NaN, infinity or a truncated value outside the target range; the trunc_sat forms never trap and saturate, NaN giving 0.", "quantifier": "all floats", "why_tests_cant": "The domain is unbounded (or 2^64 and larger per operand); tests sample it.", "anchors": ["pywasm/core.py:Machine.evaluate (trunc, trunc_sat)"]}
{"id": "C38", "title": "Integer to float conversion rounds once", "statement": "fNN.convert_iMM_s/u returns the float nearest to the integer, ties to even.", "quantifier": "all integers", "why_tests_cant": "The domain is unbounded (or 2^64 and larger per operand); tests sample it.", "anchors": ["pywasm/core.py:Machine.evaluate (convert)"]}
{"id": "C39", "title": "WASI: descriptor numbers are never reused and closed descriptors stay closed", "statement": "A descriptor returned by path_open is different from every descriptor returned before; after fd_close(fd) succeeds every later call taking fd returns BADF until it is the target of fd_renumber (which itself returns BADF on a closed target, so: for ever).", "quantifier": "all histories of WASI calls", "why_tests_cant": "All call histories.", "anchors": ["pywasm/wasi.py:Preview1.fd_close", "pywasm/wasi.py:Preview1.help_badf", "pywasm/wasi.py:Preview1.path_open"]}
{"id": "C40", "title": "WASI: rights gate every operation", "statement": "A call on a descriptor without the required right returns PERM/NOTCAPABLE and changes neither the descriptor table, guest memory nor the host file system; fd_fdstat_set_rights can only remove rights.", "quantifier": "all descriptor tables, arguments, histories", "why_tests_cant": "All call histories.", "anchors": ["pywasm/wasi.py:Preview1.help_perm", "pywasm/wasi.py:Preview1.fd_fdstat_set_rights"]}
{"id": "C41", "title": "WASI: opening cannot amplify rights", "statement": "The rights of a descriptor opened through a directory are a subset of that directory's inheriting rights.", "quantifier": "all path_open calls", "why_tests_cant": "All argument values and histories.", "anchors": ["pywasm/wasi.py:Preview1.path_open"]}
{"id": "C42", "title": "WASI: paths cannot escape the preopened directory", "statement": "A path-taking call whose lexically normalised path leaves the directory behind its descriptor is refused without touching the host.", "quantifier": "all path strings, all directory names", "why_tests_cant": "Unbounded strings.", "anchors": ["pywasm/wasi.py:Preview1.help_escp"]}
{"id": "C43", "title": "WASI: args and environ layout", "statement": "After args_sizes_get/args_get (environ likewise) guest memory holds, at the pointers written, the NUL-terminated bytes of each argument in order; the total size equals the reported buffer size, strings do not overlap and nothing else is written.", "quantifier": "all argument lists and pointers", "why_tests_cant": "Unbounded lists and strings.", "anchors": ["pywasm/wasi.py:Preview1.args_get", "pywasm/wasi.py:Preview1.args_sizes_get", "pywasm/wasi.py:Preview1.environ_get"]}
{"id": "C44", "title": "WASI: scatter/gather I/O", "statement": "fd_write sends the host exactly the concatenation of the iovec ranges in order and stores the number of bytes written; fd_read stores the bytes read into the iovec ranges in order, writes no other byte of the buffers and reports the count.", "quantifier": "all iovec arrays, memories, host results", "why_tests_cant": "Unbounded.", "anchors": ["pywasm/wasi.py:Preview1.fd_write", "pywasm/wasi.py:Preview1.fd_read"]}
{"id": "C45", "title": "WASI: host descriptors are closed at most once", "statement": "In any history of opens, closes and renumbers followed by the end of main, no host descriptor is closed twice or closed while another guest descriptor still uses it.", "quantifier": "all histories of WASI calls", "why_tests_cant": "All call histories.", "anchors": ["pywasm/wasi.py:Preview1.fd_close", "pywasm/wasi.py:Preview1.fd_renumber", "pywasm/wasi.py:Preview1.main"]}
{"id": "C46", "title": "WASI: a failing fd_seek leaves the offset alone", "statement": "fd_seek that returns an error does not change the file offset.", "quantifier": "all offsets, whences and file states", "why_tests_cant": "All states.", "anchors": ["pywasm/wasi.py:Preview1.fd_seek"]}
{"id": "C47", "title": "WASI: fd_renumber moves a descriptor", "statement": "fd_renumber(from,to) makes to denote what from denoted and closes from; every other descriptor is unchanged; renumbering a descriptor onto itself keeps it open.", "quantifier": "all tables and pairs", "why_tests_cant": "All call histories.", "anchors": ["pywasm/wasi.py:Preview1.fd_renumber"]}
{"id": "C48", "title": "WASI main returns the exit code and leaves the machine clean", "statement": "With return_on_exit (the default), Preview1.main returns the code the guest passed to proc_exit (0 when _start returns) and no other, re-raises any other exception of the guest unchanged, and when it returns or raises the machine stacks are empty.", "quantifier": "all guests, all trap points", "why_tests_cant": "Every trap point.", "anchors": ["pywasm/wasi.py:Preview1.main", "pywasm/wasi.py:Preview1.proc_exit"]}
{"id": "C49", "title": "WASI calls keep guest memory its declared length", "statement": "No WASI call changes the byte length of guest memory or writes outside the ranges its arguments name; a pointer outside memory is an error.", "quantifier": "all pointers", "why_tests_cant": "All 2^32 pointers and all memories.", "anchors": ["pywasm/core.py:MemInst.put", "pywasm/wasi.py:Preview1"]}
{"id": "C50", "title": "WASI: prestat only describes preopened directories", "statement": "fd_prestat_get and fd_prestat_dir_name succeed exactly for descriptors of preopened directories.", "quantifier": "all descriptors and tables", "why_tests_cant": "All call histories.", "anchors": ["pywasm/wasi.py:Preview1.fd_prestat_get", "pywasm/wasi.py:Preview1.fd_prestat_dir_name"]}
{"id": "C51", "title": "call_indirect checks bounds, null and type", "statement": "call_indirect traps exactly when the index is outside the table, the entry is null, or the function's type differs structurally from the expected type; otherwise it behaves as call of that function.", "quantifier": "all tables, indices, types", "why_tests_cant": "Unbounded.", "anchors": ["pywasm/core.py:Machine.evaluate (call_indirect)"]}
{"id": "C52", "title": "Parametric and variable instructions", "statement": "drop, select, local.get/set/tee, global.get/set read and write exactly the designated slot, and leave every other local, global and operand unchanged.", "quantifier": "all stacks and stores", "why_tests_cant": "Unbounded.", "anchors": ["pywasm/core.py:Machine.evaluate"]}
{"id": "C53", "title": "Host functions receive the arguments in order and must return in-range values", "statement": "A host function is called with one host value per parameter in order, converted by the parameter types; each returned value becomes a guest value of the declared type; a returned integer out of range raises.", "quantifier": "all host functions and arguments", "why_tests_cant": "Unbounded.", "anchors": ["pywasm/core.py:Machine.evaluate_call"]}
{"id": "C54", "title": "fd_filestat_set_times and fd_fdstat_set_flags honour their flags", "statement": "With MTIM_NOW the modification time becomes the current time; fd_fdstat_set_flags accepts any change among APPEND and NONBLOCK.", "quantifier": "all flags and times", "why_tests_cant": "All flag combinations and histories.", "anchors": ["pywasm/wasi.py:Preview1.fd_filestat_set_times", "pywasm/wasi.py:Preview1.fd_fdstat_set_flags"]}
{"id": "C55", "title": "Only traps, not a step budget, end a run early", "statement": "invocate returns normally only when the function has returned.", "quantifier": "all programs including those running more than 2^32 instructions", "why_tests_cant": "Needs executions longer than any test.", "anchors": ["pywasm/core.py:Machine.evaluate"]}
{"id": "C56", "title": "fd_readdir pages through a directory without loss", "statement": "Calling fd_readdir repeatedly with the cookie of the last complete entry enumerates every entry exactly once when the buffer fits each entry; the bytes written never exceed the buffer.", "quantifier": "all directory contents and buffer sizes", "why_tests_cant": "Unbounded.", "anchors": ["pywasm/wasi.py:Preview1.fd_readdir"]}
{"id": "C57", "title": "Float comparisons", "statement": "f32/f64 eq, ne, lt, gt, le, ge compare the numbers the patterns denote: every comparison with a NaN is false except ne, -0 equals +0, infinities are the extremes, and all other comparisons are exact.", "quantifier": "all pairs of floats", "why_tests_cant": "2^128 operand pairs.", "anchors": ["pywasm/core.py:Machine.evaluate (f32_eq..f64_ge)"]}
{"id": "C58", "title": "Float arithmetic rounds once", "statement": "f32/f64 add, sub, mul, div and sqrt return the exact mathematical result rounded once to the instruction's format, ties to even, with IEEE 754 treatment of NaN, infinities, signed zeros, division by zero and overflow; f64.promote_f32 is exact and f32.demote_f64 rounds once.", "quantifier": "all floats, including subnormals", "why_tests_cant": "2^128 operand pairs; double rounding errors are rare and invisible to samples.", "anchors": ["pywasm/core.py:Machine.evaluate (f32_add..f64_sqrt)", "pywasm/arith.py:F32.fit", "pywasm/arith.py:F64.div"]}
{"id": "C59", "title": "Truncated modules are rejected", "statement": "A file is accepted only if it consists of the header and complete sections (id, size, as many bytes as the size says); a file cut off inside a section raises.", "quantifier": "all files, all cut points", "why_tests_cant": "Every byte position of every file is a crash point.", "anchors": ["pywasm/core.py:ModuleDesc.from_reader"]}
{"id": "C60", "title": "Declared lengths inside a section are enforced", "statement": "A section whose contents end before, or go on after, what its own counts and lengths declare is rejected.", "quantifier": "all section contents", "why_tests_cant": "Unboundedly many malformed contents.", "anchors": ["pywasm/core.py:ModuleDesc.from_reader", "pywasm/core.py:DataDesc.from_reader"]}
{"id": "C61", "title": "WASI: a descriptor left open by one run can be used by the next", "statement": "After main has returned, every descriptor the guest can still use is backed by an open host descriptor.", "quantifier": "all histories of WASI calls, all runs", "why_tests_cant": "All call histories.", "anchors": ["pywasm/wasi.py:Preview1.main"]}
{"id": "C62", "title": "WASI: poll_oneoff waits until an absolute time", "statement": "A clock subscription with the absolute-time flag waits until the named clock shows the given time, and not at all when that time has passed.", "quantifier": "all clock values, timeouts and subscriptions", "why_tests_cant": "All times.", "anchors": ["pywasm/wasi.py:Preview1.poll_oneoff"]}
{"id": "C63", "title": "WASI: fd_fdstat_get reports the descriptor", "statement": "fd_fdstat_get on an open descriptor stores its type, flags and both right sets and nothing else.", "quantifier": "all tables and pointers", "why_tests_cant": "All call histories.", "anchors": ["pywasm/wasi.py:Preview1.fd_fdstat_get"]}
{"id": "C64", "title": "WASI: poll_oneoff reports exactly the ready subscriptions", "statement": "A poll_oneoff that returns 0 stores one event, carrying the user data of its subscription, for each clock subscription whose time has come and for each descriptor subscription the host reports ready, and no other, and stores their number.", "quantifier": "all subscription lists, clock readings and host answers", "why_tests_cant": "All subscription lists and answers.", "anchors": ["pywasm/wasi.py:Preview1.poll_oneoff"]}
{"id": "C65", "title": "Exceptions of host functions reach the embedder unchanged", "statement": "An exception raised by a host function that guest code calls comes out of Runtime.invocate as the same exception, and what the host function did to the store stays; conversely an exception of a kind the interpreter does not raise itself was raised by a host function the guest called.", "quantifier": "all guest programs, host functions, call depths and machine states", "why_tests_cant": "All call depths, programs and host functions.", "anchors": ["pywasm/core.py:Machine.evaluate_call", "pywasm/core.py:Machine.evaluate", "pywasm/core.py:Runtime.invocate"]}
{"id": "C66", "title": "WASI: bind offers every function under its own name", "statement": "After Preview1.bind, each name of WASI preview 1 that the runtime's imports offer denotes the host function of that name with the type WASI gives it, other import modules are unchanged, and existing functions keep their addresses; a WASI function works on the memory of the module that calls it and on no other.", "quantifier": "all runtimes and import tables", "why_tests_cant": "All runtimes.", "anchors": ["pywasm/wasi.py:Preview1.bind"]}
{"id": "C67", "title": "WASI: guest programs act on the host only through WASI calls", "statement": "Whatever modules are loaded and whatever exports are invoked, the descriptor table and the host history of a Preview1 object are those produced by some sequence of WASI calls; in particular over the whole life of a runtime, including main, no host descriptor is closed twice.", "quantifier": "all histories of embedder actions, all guest programs", "why_tests_cant": "All histories and programs.", "anchors": ["pywasm/wasi.py:Preview1.bind", "pywasm/wasi.py:Preview1.main", "pywasm/core.py:Machine.evaluate_call"]}
{"id": "C68", "title": "WASI: main closes every host descriptor WASI opened", "statement": "When Preview1.main has ended normally, no host descriptor that was opened for a preopened directory or by path_open is still open.", "quantifier": "all guests, all histories of WASI calls, all hosts", "why_tests_cant": "All call histories.", "anchors": ["pywasm/wasi.py:Preview1.main", "pywasm/wasi.py:Preview1.fd_close", "pywasm/wasi.py:Preview1.fd_renumber", "pywasm/wasi.py:Preview1.path_open"]}
{"id": "C69", "title": "Vector instructions on float lanes act lane by lane", "statement": "A float vector instruction never traps; each lane of its result is what the scalar instruction of the same name gives on the same lanes of the operands, a comparison gives all ones or zero, pmin and pmax return one operand's lane unchanged, and abs and neg change only the sign bit of each lane.", "quantifier": "all float vector instructions, all operands including every NaN", "why_tests_cant": "2^128 or 2^256 operands per instruction.", "anchors": ["pywasm/core.py:Machine.evaluate"]}
{"id": "C70", "title": "Host functions may call back", "statement": "A host function that invokes an exported function of the machine while it is itself being called gets the results that this invocation gives when made alone, and the invocation that called the host function then goes on and returns as if the host function had produced its results without calling back.", "quantifier": "all programs, all host functions, all depths of nesting, all arguments and machine states", "why_tests_cant": "All programs and all behaviours of host functions.", "anchors": ["pywasm/core.py:Machine.invocate", "pywasm/core.py:Machine.evaluate_call", "pywasm/core.py:Machine.evaluate"]}
{"id": "C71", "title": "WASI: path calls perform the operation they name", "statement": "A path call with the rights it needs and a name inside its directory asks the host, once, for the operation it names, on that name relative to the directory, with links followed exactly when the call asks for it, and passes the answer on: path_filestat_get stores the attributes, path_readlink the start of the target that fits and its length, path_open a new descriptor, path_filestat_set_times sets the times given and keeps the others.", "quantifier": "all path calls, names, flags, tables and hosts", "why_tests_cant": "All names, flags and host answers.", "anchors": ["pywasm/wasi.py:Preview1.path_create_directory", "pywasm/wasi.py:Preview1.path_filestat_get", "pywasm/wasi.py:Preview1.path_filestat_set_times", "pywasm/wasi.py:Preview1.path_link", "pywasm/wasi.py:Preview1.path_open", "pywasm/wasi.py:Preview1.path_readlink", "pywasm/wasi.py:Preview1.path_remove_directory", "pywasm/wasi.py:Preview1.path_rename", "pywasm/wasi.py:Preview1.path_symlink", "pywasm/wasi.py:Preview1.path_unlink_file"]}
{"id": "C72", "title": "WASI: host errors of path calls are reported to the guest", "statement": "When the host refuses the operation of a path call, the call returns the WASI number of that error and changes nothing else.", "quantifier": "all path calls, host errors, platforms and tables", "why_tests_cant": "All errors and histories.", "anchors": ["pywasm/wasi.py:Preview1.path_open", "pywasm/wasi.py:Preview1.path_unlink_file", "pywasm/wasi.py:Preview1.path_rename", "pywasm/wasi.py:Preview1.path_create_directory"]}
{"id": "C73", "title": "WASI: path_open opens with the flags that were asked for", "statement": "The host opens the file of a path_open with exactly the access mode that the requested rights need and the creation and descriptor flags the guest gave.", "quantifier": "all combinations of lookup, open and descriptor flags and rights", "why_tests_cant": "All flag and right sets.", "anchors": ["pywasm/wasi.py:Preview1.path_open"]}
{"id": "C74", "title": "WASI: fd_filestat_get reports the attributes of the open file", "statement": "fd_filestat_get on an open descriptor with the right to it stores the type, inode, link count, size and times the host has for that file, also after it was renamed or removed, and nothing else.", "quantifier": "all tables, histories, hosts and pointers", "why_tests_cant": "All histories.", "anchors": ["pywasm/wasi.py:Preview1.fd_filestat_get"]}
{"id": "C75", "title": "WASI: clocks and random numbers come from the host", "statement": "clock_time_get stores the time of the clock asked for and is refused for clocks that do not exist; random_get fills the buffer with the bytes the host gave.", "quantifier": "all clock numbers, times, buffers and hosts", "why_tests_cant": "All values.", "anchors": ["pywasm/wasi.py:Preview1.clock_time_get", "pywasm/wasi.py:Preview1.clock_res_get", "pywasm/wasi.py:Preview1.random_get"]}
{"id": "C76", "title": "WASI: offset, size and durability calls", "statement": "fd_tell stores the offset and moves nothing; fd_filestat_set_size, fd_sync and fd_datasync return success only after the host has set the size or flushed the file; after a successful fd_allocate the file has at least the size asked for and its offset is unchanged; fd_advise changes nothing.", "quantifier": "all files, offsets, sizes, histories and hosts", "why_tests_cant": "All host behaviours, including short writes.", "anchors": ["pywasm/wasi.py:Preview1.fd_tell", "pywasm/wasi.py:Preview1.fd_sync", "pywasm/wasi.py:Preview1.fd_datasync", "pywasm/wasi.py:Preview1.fd_allocate", "pywasm/wasi.py:Preview1.fd_filestat_set_size", "pywasm/wasi.py:Preview1.fd_advise"]}
{"id": "C77", "title": "WASI: socket calls", "statement": "A socket call on a descriptor that is no socket returns NOTSOCK and does not reach the host; on a socket, sock_send sends the bytes of the buffers, sock_recv stores what was received and reports truncation only when something was cut off, sock_shutdown shuts down the directions named, and sock_accept gives a new descriptor.", "quantifier": "all tables, histories, buffers and hosts", "why_tests_cant": "All histories and host answers.", "anchors": ["pywasm/wasi.py:Preview1.sock_accept", "pywasm/wasi.py:Preview1.sock_recv", "pywasm/wasi.py:Preview1.sock_send", "pywasm/wasi.py:Preview1.sock_shutdown"]}
{"id": "C78", "title": "Instantiation computes what the specification says", "statement": "Runtime.instance of a freshly decoded valid module succeeds exactly when its imports are supplied and match, its active segments fit and its start function returns; the instance, its exports and the whole store are then those the specification computes.", "quantifier": "all valid modules, stores, imports and start functions", "why_tests_cant": "All modules and stores.", "anchors": ["pywasm/core.py:Machine.instance", "pywasm/core.py:Machine.allocate", "pywasm/core.py:Runtime.instance"]}
{"id": "C79", "title": "From a file to results", "statement": "Runtime.instance_from_file on any file that encodes a valid module, followed by Runtime.invocate of any exported function, gives what the specification computes for that module: the same results, or an exception where the specification traps.", "quantifier": "all files, modules, embedder sessions, exports and arguments", "why_tests_cant": "All files, programs and histories.", "anchors": ["pywasm/core.py:Runtime.instance_from_file", "pywasm/core.py:ModuleDesc.from_reader", "pywasm/core.py:Runtime.instance", "pywasm/core.py:Runtime.invocate"]}
{"id": "C80", "title": "The command line runs what its options say", "statement": "python -m pywasm with a function name and arguments loads the file, reads the arguments with the types the function declares and prints what the function returns; wrong numbers of arguments and unreadable arguments call nothing.  With --wasi preview1 the guest sees the directories, environment and arguments of the options, and the exit code is the guest's.", "quantifier": "all options, files, programs and hosts", "why_tests_cant": "All files, arguments and programs.", "anchors": ["pywasm/__main__.py:main_wasi", "pywasm/__main__.py:main_wasm"]}
{"id": "C81", "title": "WASI: valid programs run as specified", "statement": "Preview1.main on an instance of a valid module returns 0 with the state the specification computes when _start returns, returns the code of proc_exit, or raises an exception where the specification traps, whatever the host system answers.", "quantifier": "all valid modules, embedder sessions, host systems and answers", "why_tests_cant": "All programs and host behaviours.", "anchors": ["pywasm/wasi.py:Preview1.main", "pywasm/wasi.py:Preview1.bind", "pywasm/core.py:Machine.evaluate_call"]}
{"id": "C82", "title": "Only well-formed binaries are accepted", "statement": "Runtime.instance_from_file and ModuleDesc.from_reader accept a file exactly if it is the binary encoding of a module in the format of the specification, and take it to be that module; every other file raises and leaves the machine as it was.", "quantifier": "all byte strings", "why_tests_cant": "All files, well-formed or not.", "anchors": ["pywasm/core.py:ModuleDesc.from_reader", "pywasm/core.py:Inst.from_reader", "pywasm/core.py:Expr.from_reader", "pywasm/core.py:Runtime.instance_from_file"]}
{"id": "C83", "title": "Float instructions give results the specification allows", "statement": "Every float instruction, scalar or vector, gives a result the WebAssembly specification allows for its operands, including its rules for the bits of NaN results: the canonical NaN if all NaN operands are canonical, an arithmetic NaN otherwise, and unchanged bits where only bits are moved.", "quantifier": "all float instructions and all operands", "why_tests_cant": "All pairs of 2^32 or 2^64 bit patterns, NaN payloads included.", "anchors": ["pywasm/core.py:Machine.evaluate", "pywasm/arith.py:f32", "pywasm/arith.py:f64"]}
{"id": "C84", "title": "Programs compute what the specification allows, float results included", "statement": "A call of an exported function of a valid module returns results that the WebAssembly specification allows for the whole program, whatever float instructions it runs and however their results are used later, or raises where the specification traps.", "quantifier": "all files of valid modules, all sessions, all calls and arguments, all numeric instructions and operands they meet", "why_tests_cant": "a wrong bit in one float result can change any later branch, address or call; tests compare the results of few programs on few inputs and mostly skip NaN bits and signed zeros", "anchors": ["pywasm/core.py:Runtime.instance_from_file", "pywasm/core.py:Runtime.invocate", "pywasm/core.py:Machine.evaluate", "pywasm/core.py:ValInst"]}
{"id": "C85", "title": "Logging changes nothing but the output", "statement": "Loading, instantiating and calling with pywasm.log.lvl set to any value give the same results, exceptions and effects on the machine as with logging off, and with a level of 0 or less nothing is printed.", "quantifier": "all log levels, files, modules, machines, calls and host functions", "why_tests_cant": "All programs and executions at both settings.", "anchors": ["/repo/pywasm/log.py:debugln", "pywasm/core.py:ModuleDesc.from_reader", "pywasm/core.py:Machine.evaluate", "pywasm/core.py:Machine.invocate", "pywasm/core.py:Machine.instance"]}
{"id": "C86", "title": "The listing of a module is right", "statement": "With logging on, loading a file prints one line for each type, import, function, table, memory, global, export, start function, element segment, function body and data segment of the module it encodes, and one for each instruction, with the name the specification gives to its opcode and its immediates, indented by nesting depth.", "quantifier": "all files that encode a module", "why_tests_cant": "Unboundedly many modules.", "anchors": ["pywasm/core.py:Expr.disasm", "pywasm/core.py:Inst.__repr__", "pywasm/core.py:ModuleDesc.from_reader", "/repo/pywasm/opcode.py"]}
{"id": "C87", "title": "The trace shows the instructions executed", "statement": "With logging on, a call prints the function's address and its arguments and then, in order, one line for each instruction that is executed, the last one being that which raised if there was an exception (for code whose numbers have at most 4300 digits).", "quantifier": "all programs, arguments, hosts and numbers of steps", "why_tests_cant": "Unboundedly long executions.", "anchors": ["pywasm/core.py:Machine.evaluate", "pywasm/core.py:Machine.invocate", "/repo/pywasm/log.py:debugln"]}
{"id": "C88", "title": "Instances that share nothing do not affect each other", "statement": "Instantiating a module and calling its exports, whatever they do and whether they return or raise, neither changes nor depends on functions, tables, memories, globals and segments that nothing in the instance leads to: not its imports, not what these import, and not the function references in its tables and globals.", "quantifier": "all modules, machines, host functions that keep to the instance, and all sequences of calls", "why_tests_cant": "All programs and histories; the effect would show up in an unrelated instance.", "anchors": ["pywasm/core.py:Machine.instance", "pywasm/core.py:Machine.invocate", "pywasm/core.py:Machine.evaluate", "pywasm/core.py:ModuleInst"]}
{"id": "C89", "title": "Command lines are read as declared", "statement": "python -m pywasm accepts exactly the command lines made of one file name and any number of options in any order: --func, --func-args, --wasi-envs, --wasi-dirs, --wasi-args and --wasi preview1, by name or unambiguous abbreviation, each with its value joined by = or as the next word (which then must not look like an option); -- ends the options.  Of several --func the last counts, the others are collected in order.  With --wasi the process exits with the code of the WASI program and nothing is printed after it, without it the results are printed.  Every other command line exits, with 0 after the help or the version if the first of -h, --help, -v and --version comes before an error and no word is an ambiguous abbreviation, and with 2 otherwise, reads no file and runs nothing.", "quantifier": "all lists of argument strings, all files, hosts and machines", "why_tests_cant": "All argument lists: abbreviations, order, values that look like options.", "anchors": ["pywasm/__main__.py:parser", "pywasm/__main__.py:main_wasi", "pywasm/__main__.py:main_wasm"]}
{"id": "C90", "title": "The embedder's view of guest memory", "statement": "On an exported memory, put and the put_* methods replace exactly the addressed bytes and nothing else, storing numbers little endian and in two's complement; get and the get_* methods return exactly the addressed bytes or the number they hold; the guest's loads see what the embedder wrote and the embedder sees what the guest stored.  Numbers that do not fit and accesses that are not wholly inside the memory raise and change nothing.", "quantifier": "all memories, addresses, widths, bytes, numbers and guest loads and stores", "why_tests_cant": "All addresses, in particular the last bytes of a memory, and all values at the edges of their ranges.", "anchors": ["pywasm/core.py:MemInst", "pywasm/core.py:Runtime.exported_memory"]}
{"id": "C91", "title": "Exports are found by name and kind", "statement": "exported_memory and exported_global return the memory or global that the first export with that name names; they raise if there is no such export or it is of another kind; and they change nothing.  For an instance made from a module it is the memory or global that the module declares under that name.", "quantifier": "all module instances, names and machines", "why_tests_cant": "All export lists, including several kinds of exports and repeated names.", "anchors": ["pywasm/core.py:Runtime.exported_memory", "pywasm/core.py:Runtime.exported_global"]}
{"id": "C92", "title": "WASI: calls report errors of the interface", "statement": "A WASI call that returns gives the guest one number, that of an error of the preview 1 interface that the call can report (success included), whatever the host answers; every other failure is an exception in the embedder.", "quantifier": "all calls, arguments, states and hosts", "why_tests_cant": "All answers a host system can give, including error numbers of its own.", "anchors": ["pywasm/wasi.py:Preview1.bind", "pywasm/wasi.py:Preview1.path_open", "pywasm/wasi.py:Preview1.poll_oneoff", "pywasm/wasi.py:Preview1.sock_shutdown"]}
{"id": "C93", "title": "WASI: files keep what the guest writes", "statement": "On a host with regular files a guest reads back what it wrote: once fd_pwrite, or fd_write followed by fd_seek back to where it started, has reported a number of bytes, fd_pread, or fd_read, from there gets those bytes, whatever buffers they are split into on either side.", "quantifier": "all contents, offsets, buffer layouts, histories and hosts whose descriptor is a regular file, including hosts that write less than they are asked to", "why_tests_cant": "All ways to split data into buffers, all short writes and all earlier histories.", "anchors": ["pywasm/wasi.py:Preview1.fd_pread", "pywasm/wasi.py:Preview1.fd_pwrite", "pywasm/wasi.py:Preview1.fd_read", "pywasm/wasi.py:Preview1.fd_write", "pywasm/wasi.py:Preview1.fd_seek"]}
{"id": "C94", "title": "WASI: a descriptor of a regular file is a file with an offset", "statement": "Whatever sequence of successful fd_read, fd_pread, fd_write, fd_pwrite, fd_seek and fd_tell calls a guest makes on a descriptor of a regular file, with buffers that are not empty, changing its memory and making other calls meanwhile that do not touch the file: what it reads, and the counts and offsets it is told, are those of a file with an offset on which the operations are done one after the other.", "quantifier": "all histories, contents, offsets, buffer layouts and hosts whose descriptor is a regular file, including hosts that write less than they are asked to", "why_tests_cant": "All sequences of calls of any length.", "anchors": ["pywasm/wasi.py:Preview1.fd_pread", "pywasm/wasi.py:Preview1.fd_pwrite", "pywasm/wasi.py:Preview1.fd_read", "pywasm/wasi.py:Preview1.fd_write", "pywasm/wasi.py:Preview1.fd_seek", "pywasm/wasi.py:Preview1.fd_tell"]}
{"id": "C95", "title": "Values are what they were made from", "statement": "A value made by a public constructor of ValInst from an unsigned number, the bits of a float or a list of lanes has the type named, and reading it in the same way gives the same numbers back (a float put in a lane of single precision comes back as the nearest single); a number out of range or a list of the wrong length raises an exception instead of making another value. A Python int given where a float is expected becomes the nearest double, ties to even, and is refused if that is infinite; a float given for an f32 becomes the nearest single and is unchanged if it is a single.", "quantifier": "all integers, all bit patterns, all lists of integers or floats, all four lane widths", "why_tests_cant": "The domains are all integers, all floats and all lists; wrong rounding, a wrong type tag or a wrong boundary shows only at particular numbers.", "anchors": ["pywasm/core.py:ValInst.from_u32", "pywasm/core.py:ValInst.from_f64_u64", "pywasm/core.py:ValInst.from_v128_i8", "pywasm/core.py:ValInst.from_v128_f32", "pywasm/core.py:ValInst.from_all", "pywasm/core.py:ValInst.into_all"]}
{"id": "C96", "title": "Results can be passed on", "statement": "Whatever value a guest returns to the embedder can be given as an argument of the same type to another invocation, and the guest that receives it has the value the first one returned, bit for bit.", "quantifier": "all values of all seven types", "why_tests_cant": "All bit patterns of all types must survive, among them every NaN; a few numbers tried in a test say nothing of the others.", "anchors": ["pywasm/core.py:ValInst.into_all", "pywasm/core.py:ValInst.from_all", "pywasm/core.py:ValInst.into_ref", "pywasm/core.py:ValInst.from_f32"]}

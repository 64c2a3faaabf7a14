# Formal model of Terraspace/UASM in Lean 4 — design

## Layout
* `lean/Verif/<Area>/Model.lean`  executable model, each definition cites file + lines of /repo.
* `lean/Verif/<Area>/Spec.lean`   independent specification (short, readable without the model).
* `lean/Verif/<Area>/Proofs.lean` helper lemmas.
* `lean/Verif/<Area>/Props.lean`  the property theorems (named `Cxx_...`) with non-vacuity examples.

## Plan per property (what is modelled / how proved)
| id | model | proof shape |
|----|-------|-------------|
| C01,C02 | `condasm.c` state (CurrIfState, nest levels, else bit set) with step per directive | refinement of structured block semantics by induction on the block tree; invariant over directive histories |
| C03,C04 | `myatoi128` (16-bit limb multiply-add), `myltoa`, `myqtoa`, `num2hex64` | loop invariants, round trip |
| C05-C07 | `omfint.c` record buffer, `omffixup.c` sub-records, `omf.c` COMDEF numbers | round trip with a separate reader; sum = 0 mod 256 |
| C08 | `posndir.c` | arithmetic + table walk |
| C09 | `mangle.c` | case split, injectivity of decimal printing |
| C10 | `queue.c`, `lqueue.c` | pointer-level heap refinement to list |
| C11 | `symbols.c` hash buckets as move lists | refinement to finite map |
| C12 | `reswords.c` | refinement to finite map |
| C13,C14 | `expreval.c` `evaluate`, `calculate` on constants | precedence-climbing = spec grammar; BitVec arithmetic |
| C15 | `string.c` | list lemmas |
| C16 | `macro.c` | text round trip |
| C17,C18 | `branch.c`, `backptch.c`, pass loop of `assemble.c` | arithmetic modulo 2^32; fixpoint argument |
| C19 | `parser.c`/`codegen.c` ModRM+SIB | encode then decode with an independent decoder |
| C20 | `data.c` | byte-level |
| C21,C22 | `types.c` | invariant by induction over fields |
| C23-C25 | `bin.c` | induction over segment lists |
| C26, C41, C42 | `coff.c` | whole file read back; induction over symbol and section lists, index invariant |
| C27, C43, C44 | `elf.c`, `fixup.c` (store_fixup) | whole file read back (32 and 64 bit); write-at-offset layout lemma, index invariant |
| C28 | `hll.c` | compiler correctness, structural induction |
| C29 | `memalloc.c` | invariant over allocation histories |
| C30 | `proc.c` | induction |
| C31 | `context.c` | stack refinement |
| C32 | `codegenv2.c` | refinement to list search |

## Trusted base
Lean 4.33 kernel; axioms at most `propext`, `Classical.choice`, `Quot.sound`. The reading of the C source is by hand.

## Area notes (kept current)

### CondAsm (C01, C02, C33) — `condasm.c`
Modelled: CurrIfState, blocknestlevel, falseblocknestlevel, elseoccured bit set, all IF/ELSEIF/ELSE/ENDIF directive
handlers, CondCheckOpen. Not modelled: expression evaluation and symbol lookup (a `World` parameter), listing.
Findings: `IF` looks at the low 32 bits only; `IF2` without `OPTION SETIF2` leaves the next state uninitialised.

### Num (C03, C04, C34, C35) — `tokenize.c get_number`, `myatoi128`, `ltoa.c`/`expans.c` conversions
Findings: `%expr` truncates to 32 bits; a value that is a negative multiple of 2^32 becomes the text "-".

### Omf (C05-C07, C36, C37) — `omfint.c`, `omffixup.c`, `omf.c` (fixupp, ledata, comdef), output functions of `assemble.c`
The C buffer is modelled with explicit undefined behaviour (`Fail.ub`) and aborts (`Fail.fatal`).
Not modelled: COMDAT data records in the segment flush, debug records, CommentDataInCode, the write to the file itself.
Findings: explicit frame of the target's kind is lost (`C07_frame_lost`); INCBIN and wide strings overflow the 1 KB
code buffer; indices above 0x7FFF are written ambiguously (excluded by `idxOk`).

### Align (C08) — `posndir.c`
Modelled: AlignDirective with its power-of-two loop, NOP tables, fill_in_objfile_space, EVEN, AlignCurrOffset. The NOP tables
are checked against an independent decoder of the NOP forms per mode. Not modelled: ALIGN_TOO_HIGH warning, listing.
Finding: for a value above 2^30 that loop never ends (`C08_large_value_hangs`).

### Mangle (C09) — `mangle.c`
All manglers. Findings: `ms32_decorate` looks at `Options.fctype`, its selector at `ModuleInfo.fctype`; STDCALL/FASTCALL
names containing `@` can collide.

### Mem (C29) — `memalloc.c` (FASTMEM)
LclAlloc with the OS as a parameter. Finding: `currfree` has 32 bits. Not modelled: FreeMem, 32-bit host.

### LineQueue (C10) — `lqueue.c`
AddLineQueue, DeleteLineQueue, RunLineQueue on an explicit heap; what a line does is an arbitrary program over the queue.
Not modelled: PushInputStatus/PopInputStatus, DEBUG_OUT counters, AddLineQueueX formatting (see Num, C34).

### Expr (C13, C14) — `expreval.c` evaluate, get_precedence, calculate for constants
`evaluate` is modelled as mutually recursive functions that may diverge (partial_fixpoint); termination is proved. C13 is stated
against syntax trees and the precedence table of the manual. Not modelled: `.label`, RECORD literals, OPATTR/.TYPE, addresses and
registers as operands (`Sem` is a parameter for C13; C14 fixes constants).
Findings: M510 brackets; INT64_MIN / -1 kills the process; shift counts are cut to 32 bits; the left operand's upper 64 bits
are not checked; 128-bit negation wrong when the low half is 0; SHR of ..FFFFFFFF depends on the host's unsigned long.

### Branch (C17) — `branch.c` process_branch, jumpExtend, the branch entries of `instruct.h`, emission in `codegen.c`
Label in the current segment, no relocation. Spec: an independent decoder and executor of JMP/Jcc/CALL/LOOPcc/JCXZ with prefixes.
Not modelled: FAR, segment overrides, fixups to other segments, far call optimisation.
Findings outside of the model: Jcc NEAR16/NEAR32 PTR to an external leaves an 8-bit fixup with a wide operand.

### Passes (C18, C38, C39) — `assemble.c` AssembleModule, `backptch.c`, `label.c` CreateLabel, `data.c` label part
One segment; items: bytes, code labels, data labels, ALIGN, branches. Pass 1 with fixup list, BackPatch and the label adjustment;
later passes; the loop as a partial function (`none` = does not terminate). The safety theorem holds from any state of labels that
pass 1 or earlier passes may have left. Not modelled: ORG, several segments, PUSH of forward references, FAR labels, structure of
the fixup after pass 1.
Findings: the loop may oscillate for ever (`C18_passes_may_not_terminate`); branches to data labels become `jmp $`
(`C18_data_label_wrong`). Outside of the model: `posndir.c` 250 dereferences `ModuleInfo.flat_grp` when it is NULL (ALIGN value
above the segment alignment in a non-flat module).

### Symbols (C11) — `symbols.c`, PROC/ENDP scoping of `proc.c`, `label.c` CreateLabel
Pointer-level: heap of symbols, bucket heads, the cursors `lsym`/`gsym`, `nextll` lists of saved locals, the FNV hash exactly.
Spec: ordered lists of symbols per scope. Every history of operations gives the results of the spec (refinement by an invariant),
so scans terminate. Not modelled: `used`/`structLookup` side effects, EXTERNDEF conversion, all other symbol attributes.
Limit: a local label that first appears in a later pass (not possible with stored lines) is outside of the hypothesis `Repeats`,
because SymGetLocal is called in pass 1 only.

### ResWords (C12) — `reswords.c`
Pointer-level: `resw_table`, `next`, name pointers (with the storage they point into), the list of disabled words, the list of
renamed words. Loops may diverge. Table contents are a parameter with the consistency hypotheses `Cfg.Ok`. Not modelled:
`optable_idx`, ResWordsFini, IsKeywordDisabled.
Findings: the search loop in RenameKeyword never advances, so renaming any keyword but the first renamed one again hangs
(`C12_rename_again_hangs`, `C12_hang_reachable`). Not proved: SYSCALL disabled by NOKEYWORD reappears after a mode switch and
corrupts the list of disabled words; a renamed SYSCALL gets the wrong length after a mode switch; ResWordsFini inserts a word that
was renamed and then disabled twice.

### Strings (C15, C40) — `string.c`
CatStr, SubStr, SizeStr, InStr directives and the predefined macro functions, on text memory with explicit out-of-bounds reads;
UTF8toWideChar completely. Spec: list functions take/drop/append/first occurrence; RFC 3629 and RFC 2781.
Findings: `SUBSTR` with `pos + size - 1` above 2^31 passes the range check and copies from outside of the text
(`C15_substr_dir_overflow`); positions are cut to 32 bits (`C15_position_truncated`). Outside of the model: RunMacro ignores the
return code of the predefined functions; INSTR with start 1 on an empty text is an error although the text is empty.

### Hll (C28) — `hll.c` 79-1140
The recursive-descent code generator with its in-place text edits (InvertJump on the characters of the mnemonic, ReplaceLabel,
cutting the text at `lastjmp`), as partial functions on a buffer of lines. Spec: a machine with flags that executes the lines
(`Run`), the syntax of conditions with its printer, and the C meaning of a condition (value and flags afterwards). The invariant
of the proof describes the code up to the last jump and the exits that may still be redirected. Not modelled: operand expressions
(one token each), `@C%04X` overflow, INVOKE inside of conditions, the V-forms of ucomis (same flags).
Findings: `.while (a && b) && c` is compiled as `(a && b) || c` (`while_and_and_wrong`); `.if !(a && b) || c` as `!(a && b) && c`
(`if_not_and_wrong`): there is no last jump behind a closed list, and the edit is skipped silently; `.if a || (b || 1)` defines a
label twice; `.if (a || 1) || c` edits a label as if it were a jump; the constant -2^32 is false; `<`, `<=`, `==` on XMM registers
are true for NaN.

### Macro (C16) — `macro.c` 64-240, `input.c` 685-730
The scanner that edits the line in place (pointer positions, moved tails, rescanned index bytes), the filling of placeholders, the
counter of locals. Spec: one left-to-right reading of the line (`scan`), which knows neither placeholders nor edits.
Findings: a line that ends with `!` is scanned behind its end (`C16_exclamation_overrun`); the index byte of a one-character name
is scanned again, so the 34th parameter opens a string (`C16_index_rescanned`) and a 65th parameter named `A` makes the assembler
loop (`C16_index_loop`); 256 replacements in a line count as none (`C16_count_wraps`). Outside of the model: `mnames[256]`
overflows with more than 255 parameters, and the line buffers are not checked when a line grows.

### ModRM (C19) — `expreval.c` plus_op/index_connect, `parser.c` memory_operand/set_rm_sib/comp_mem16/seg_override, `codegen.c` output_opc/output_data
Operands `[t + t + ...]` of registers, scaled registers and numbers, from the evaluator to the bytes. Spec: an independent decoder of
ModRM, SIB, displacement, REX and 67 after the tables of the Intel manual, and the address as a linear form. Not modelled: types and
symbols of the operand (a fixup is a flag), number*register (the upper half of the number stays in the displacement), operand
sizes, instructions which CodeGenV2 or VEX encode, string instructions, LEA.
Findings: spurious SIB byte for `[si]` in 32-bit code (`C19_finding_si`), `[rip+rcx]` loses RIP, `[si*2]` in 64-bit code,
`[rax+80000000h]` is sign extended, scales are cut to 8 bits, `[ax]` becomes `[bx+si]`.

### Context (C31) — `context.c`, `assume.c` 86-141
The stack and the free list as linked lists in a memory of nodes, including the removal of items from the middle and the reuse of free
nodes; the operands of the directive; the saved state for the following passes. Spec: a machine with one independent stack for each
kind of settings, and balance of a program for one kind. Not modelled: the comparison of names without case.
Findings: `total_size`, `isfar` and `Ofssize` of assumed register types are not saved (`C31_finding_total_size`), the default offset
size which cpu directives set is not saved (`C31_finding_ofssize`). Outside of the model: without an operand the directive tests an
uninitialised variable.

### Data (C20) — `data.c: data_item, little_endian`
`items` follows the C control flow from label `next_item` on: start position, current position, the `dup` counter,
`total` and `first` are its arguments, the recursion for `n DUP (...)` is the recursion of the C code. It is a
`partial_fixpoint`; that it never diverges is part of the theorem. The specification (`Spec.lean`) is a grammar: two mutually
inductive relations saying which token lists are initializers, what bytes they stand for and how many elements they are.
`C20_data_directive_partial` is proved by strong induction on the length of the line, with uniqueness of the grammar's result
carried along. Number items go through `Num.lean` (byte lists as numbers, the sign-fill check of `data.c` 909-925).
Operands are single tokens (the evaluator is area Expr). Not modelled: floats, structure initializers, the UTF-8 branch
of OPTION LITERALS:ON, the BSS warning; errors emitted without return end the model's run.
Findings: see the `C20_finding_*` theorems.

### Struct (C21) — `types.c` StructDirective, CreateStructField, AlignInStruct, UpdateStructSize, EndstructDirective, SearchNameInStruct
State machine over source lines with the `CurrStruct` chain as a stack; member lists are trees (a member may have a structured type). All quantities are 32-bit vectors with the signedness of every comparison as in the source. Invariant `Inv` of every open structure, `CInv` of every closed one; the specification (`Spec.Layout`, `Tight`, `visible`) is in natural numbers. Hypotheses: no ORG, and the definition stays below 2 GB at every line (`Small`).
Not modelled: redefinition of a type, `OPTION OLDSTRUCTS`, initial values, passes 2+ (which only recompute the current offset), `dw 'AB'`-like fields whose total size is wrong (C20 finding) – `total` is whatever data_item computed.
Findings: sizes that are not powers of two are used as masks (`STRUCT 8` with one FWORD has 10 bytes); ORG to a negative offset with alignment > 1 loses the size reached before (unsigned comparison); ORG overlaps silently; an anonymous structured member with `0 DUP` leaves visible names outside the structure.

### Record (C22) — `types.c` RecordDirective, `expreval.c` GetRecordMask/wimask_op, `data.c` ShiftLeft and the bit-field part of InitStructuredVar
Widths are 32-bit integers; MASK and initialisers are 64-bit vectors, OWORD records a pair of them. Out-of-range shift counts (undefined in C) take the x86-64 meaning and are stated as such. Proved for all lists of positive widths.
Findings: negative widths accepted (fields overlap); width sum wraps; `ShiftLeft` uses `63 - pos` (bit 63 duplicated into bit 64, fields across bit 64 stored wrongly); MASK above bit 63 aliases; an omitted initialiser keeps the high half of the previous one; the magnitude check sees only the low 32 bits and only widths below 32.

### Bin (C23-C25) — `bin.c` CalcOffset, pe_set_values, DoFixup, pe_set_base_relocs, GetSegRelocs; `segment.c` SortSegments
Layout: CalcOffset and the PE loops as folds over segment lists with 32-bit arithmetic; sizes are bounded by a budget (sum of sizes and alignments below 4 GB). SortSegments is a `partial_fixpoint`; termination and stability are proved. The section table's memory is taken to be zero initially; Characteristics, code/data base and size are not modelled, nor the tail pointer of the segment list.
Fixups: code buffer as a byte map with little-endian stores, null dereference = no result, the uninitialised local `value64` is part of the loop state. The specification is arithmetic on linear addresses (`Spec.linear`, `paragraph`, `frameOffset`). Base relocations: both passes over the fixups (count, write) and the buffer as 16-bit words; the specification is an inductive reader of PE blocks.
Findings: see theorems `C23_*`, `C24_*`, `C25_*` without proofs of the claim (names say what happens): interleaved group members, BSS before initialised data, ORG in ungrouped segments, SizeOfRawData misses alignment padding, an empty last segment merges two sections, alignments above the section alignment; FIX_SEG of a label in an absolute segment, stale 64-bit value, far pointer frame mismatch; empty relocation table overrun, last block unpadded.

### Elf (C27, C43, C44) — `elf.c` (all of elf_write_module) and the ELF part of `fixup.c:store_fixup`
Both variants (`b64`) in one model. Output is a header, a section table and a list of `fseek`/`fwrite` pairs applied to the file; `Layout.lean` proves that the writes are in ascending order and that each can be read back. `Elf/Spec.lean` is a reader written from the gABI. Counters are natural numbers; the theorems assume a file below 4 GB and (ELF32) fewer than 2^24 symbols. Not modelled: error reporting for unsupported fixup types (assumed absent, `fixType`), TARGET_OSABI choice (`osabi` is an input).
Findings: `C44_elf32_displacement_lost` (`jmp ext+8` and `jmp ext` give the same ELF32 object), `C44_elf64_displacement_lost` (r_addend is -addbytes only; the same applies to assembly-time variables, whose offset stays in the field); a fixup without symbol makes set_symtab_values dereference NULL (elf.c:577; modelled as `none`).

### Coff (C26, C41, C42) — `coff.c` (everything coff_write_module calls except line numbers, -Zi and .drectve creation)
The model writes the bytes of the file; `Coff/Spec.lean` is a reader of object files written from the COFF specification (headers, symbol records with auxiliary records, string table, extended relocation count). Theorems compare what is read with the module. `uint_32` counters are natural numbers, and the theorems assume a file below 4 GB. `ModOk` lists the input conditions (names not empty and without NUL, fixups only in sections with data, targets exist, ...). The section name field's previous contents are arbitrary (`junk`). CRC of COMDAT sections is written but not specified.
Findings: `C41_zls_comdat_counterexample`, `C42_readonly_bss_counterexample`, `C26_slash_counterexample`; not modelled: NumberOfLinenumbers is truncated to 16 bits in the layout, `.file` records of line-number modules.

### Proc (C30: procedure frames)
Model: offsets of parameters (end of ParseParams) and locals (SetLocalOffsets, _RBP, _RBP_SYSV, _RSP), and the stack effect of the four
prologues (`proc.c`). Specification: a machine executing push/sub/lea/vector store; what it stored, the return address and the locals (as
regions relative to the stack pointer at entry) must be pairwise disjoint and the locals above the stack pointer; parameters must be in the slots
where the caller left them. Not modelled: wrap-around of sizes at 2^32, epilogues, win64_SaveRegParams, vectorcall spill area, W64F_HABRAN, user prologues, the
`sub rsp,8` for leafless FASTCALL procedures.
Proved: 16/32-bit frames with and without frame pointer, NEAR and FAR; Win64 FRAME with frame pointer (all register lists, also vector registers), with
16/8/4-byte alignment of locals; System V and RSP-based frames under conditions.
Found (each a proved counterexample unless marked): (a) 64-bit PROC without FRAME under OPTION WIN64:2 with USES and LOCAL overlaps (offsets assume registers pushed before the
stack is lowered); (b) System V: odd number of pushed registers plus a vector register in USES overlaps the first local; (c) System V OPTION REDZONE: vector
registers are stored over pushed registers/return address; (d) RSP: a zero-length local makes later locals overlap earlier ones (ROUND_UP by 0 is 0); (e) RSP: ZMM in USES is given
16 or 32 bytes; not proved, by reading: (f) FPO with LOADDS is off by one word; (g) 64-bit procedures of other language types get no parameter offsets; (h) pass 1 of the RBP variant
uses a stale count of pushed registers (corrected in pass 2).

### Cgv2 (C32, C45-C48) — `codegenv2.c`, `H/InstrTableV2.h`, `H/MemTable64.h`, `H/MemTable32.h`
`Types/Table/MemTab/RegTab.lean` are mechanical transcriptions of the three C tables and of the register part of `H/special.h`; `Lookup.lean` models hashing, insertion, chain walk,
demotion and MatchOperand. `lookup_first`: for every table and query the hashed search returns exactly the first row (in table order) which answers the request in the
sense of `LookupSpec.Answers`, or nothing if no row does. Shipped-table facts are proved by kernel evaluation over the (finite, complete) table.
Found: MMX operands fall through to `R_ST0` (`mmx_becomes_st`), BND operands leave the type uninitialised (`bnd_uninitialised`), rows with R_XMME/R_YMME can never be requested, and the fifth
operand type is neither hashed nor compared.

Encoding (C45-C48): `Enc.lean` models GetRegisterNo, BuildModRM, BuildREX, BuildVEX, BuildEVEX, CompDisp, BuildMemoryEncoding, PromoteBroadcast and the emitting part of
CodeGenV2 as one function `emit` from a table row, operands and mode to bytes (or an error; an error that does not return ends the model's run). The V2 generator is only called for
USE32 and USE64 code (parser.c:4056), so USE16 is not modelled. Not modelled: IsValidInCPUMode (CPU selection), the listing, operand parsing, the fixup creation before the row lookup (`ripFixup` models
where the finished fixup points). `displacement` and immediates are the 64-bit unions of the source.
Specification: `EncSpec.lean` is an instruction reader (prefixes, REX, VEX, EVEX, ModRM, SIB, displacement with disp8*N) written from the SDM, `Sdm.lean` the forms of the mnemonics in the
table, transcribed by hand from the SDM (opcode map, pp, W, L, operand roles, disp8 multiplier). Neither uses the model. `readForm` succeeds only on one complete instruction with nothing left over.
The theorems range over all 367 shipped rows (one kernel-evaluated check `table_check` links each row with its form; everything else is proved for arbitrary rows satisfying the check), all operands, and both modes.
Found: (1) CompDisp divides the displacement even when four bytes are then emitted (no base, or a symbol) – `evex_index_only_disp`, `evex_symbol_disp`; (2) rows that are EVEX only, without decorator: disp8 is not
compressed – `evex_only_disp8`; (3) 32-bit code with 16-bit base: `[bp]` becomes `[bx+si]` – `bp_becomes_bx_si`; (4) wrong N for vpmovzxbq, vbroadcastsd ymm, vcvtdq2pd – `evex_wrong_multiplier`; (5) EVEX
store to a plain variable: clears X̅, in 32-bit code the bytes are BOUND – `evex_store_variable_is_bound`; (6) the two MEM_ABS kinds index `opExpr[8]`/`[9]` (out of bounds); (7) missing 67h for `[eax*4+8]` and
`[ebx+sym]` – `index32_no_prefix`, `base32_symbol_no_prefix`; (8) VEX gathers with a mask register above 7 change the base – `gather_mask_changes_base`; (9) rows with a 64-bit memory operand lose REX.W in
32-bit code – `qword_store_in_32bit`; (10) two-operand vmulps with a mask: no prefix at all – `dup_with_mask_no_prefix`; by reading: (11) `{rn-sae}` is accepted on 128/256-bit rows; mpsadbw without immediate; rows 293, 297, 319, 323 unreachable;
index RSP silently means no index; an explicit wrong `{1toN}` is silently halved for vcvtdq2pd.

### Hll blocks (C49) — `hll.c` 1121-1200, 1465-1530, 1621-1876, 2739-2850, 3037-3190
`Blocks.lean` models HllStartDir, HllEndDir, HllExitDir (without .SWITCH), CheckCXZLines and HllCheckOpen as a function from the list of source lines to the list of lines that are assembled. Conditions are the model of C28. `BlocksSpec.lean`
has structured programs (`Stmt`), their text (`print`), a small-step machine for the lines (`Step`, `Computes`) and a big-step meaning of the programs (`Exec`, with `LoopEx`, `RepeatEx`). `blocks_run_partial`: for every program
the text is accepted and `Computes code st st' ↔ Exec p st norm st'` (both directions, so also non-termination agrees). `accepted_nested`: every accepted source is the text of some program.
Proof: `BlocksMain` (induction over the program: the code has the form `Shape` and its labels are fresh), `BlocksSim` (code of the form `Shape` simulates `Exec`; the converse direction by induction over the number of steps).
Found: `while_zero_wrong` (`.while 0 && a` runs its block once: the optimisation "the test is just a jump" only looks whether the first line begins with jmp), `while_empty_wrong`, `until_empty_once`, `untilcxz_zero_wrong` (becomes LOOPE), `for_zero_undefined`;
by reading: `.for` conditions that end in `>0` are cut to a truth test (so a signed test becomes unsigned); `.continue` in a `.switch` in a loop jumps to the last case label of the switch (hll.c:3075 skips only HLL_IF); `reg += 0` in .FOR becomes `xor reg,reg`; more than 0xFFFF labels break the in-place label replacement.

### Lex (C50, C51) — `tokenize.c` (whole file except the parts named below)
`Model.lean` transcribes Tokenize, GetToken, get_number (reusing C03's model), get_float, get_id, get_id_in_backquotes, get_special_symbol, get_string, ConcatLine, IsMultiLine and StartComment. The tables of reserved words, the symbol table
(is this a macro?) and the options are parameters (`Cfg`), so the theorems hold for all of them. Not modelled: `{}` literals and EVEX decorators (the model says `outside`), `{evex}` and BCST, the mnemonics rewritten by pseudoFilter.c, MAX_LINE_LEN checks,
M510, the listing. `Spec.lean`: `Reads` (a line is tokens, blanks, comment: for C50_lossless) and `Written` (lexemes with the rules of maximal munch: for C50_line). Lossless is proved by induction over the rounds of the loop, with one lemma per scanner;
the round trip by induction over `Written`; the number of rounds is bounded by the characters and lines left (`loop_fuel`, `loop_mono`).
Found by reading: `stringlen` of an undelimited string is one less for each `!`; an unterminated quoted string swallows the comment; the test "last character is a comma" of an open `<` literal can read before the string buffer if it has only blanks;
get_decos copies up to `}` into `buff[32]` without bound; `[+x` drops the `+`; with OPTION EVEX:1 every token that begins with `v` truncates the line at the first `;` even inside quotes (tokenize.c 1368-1370), so `var db 'a;b'` becomes an unterminated string.

### Frame (C52-C55) — `proc.c` prologues, epilogues and Win64 unwind data
`Machine.lean` is a small machine (registers, stack pointer, byte memory; push, pop, sub, lea, loads and stores); `Model.lean` transcribes the lines generated by write_win64_default_prologue_RBP/_RSP, write_sysv_default_prologue_RBP,
write_generic_prologue and the matching epilogues, win64_SaveRegParams_*, win64_StoreRegHome, pop_register, and ExcFrameDirective and WriteSEHData. Lengths of instructions are an arbitrary positive function. Not modelled: vectorcall, OPTION FRAMEFLAGS,
STACKPROBE, RSP prologue with W64F_SMART but without W64F_SAVEREGPARAMS, `mov ax,DGROUP`, wrap-around of addresses. `Spec.lean`: BodyEnd (what the body must respect), Undone, a reader of UNWIND_INFO (`readInfo`), the unwinder (`unwind`, after RtlVirtualUnwind,
without epilogue detection), what directives announce. Proof: C52 by induction over the lines; C54 by symbolic execution of the parts; C53 by cutting the prologue at any boundary into prefixes of its four parts and undoing them.
The conditions of the theorems about the default prologue are proved for every frame computed by SetLocalOffsets_RBP (`W.Laid.ok`, with C30's model of that function).
Found: .SAVEREG/.SAVEXMM128 with large offsets: FAR forms are scaled, the boundary value is truncated to 0, the high dword is ignored, registers 16-31 are truncated; USES with a volatile register pushes without .PUSHREG; RSP prologue: registers in the
home area announced relative to the wrong stack pointer, `sub rsp` without .ALLOCSTACK, vector registers restored but never saved, ZMM not restored, room for vector registers not freed without WIN64:2, misaligned stack with vector registers and odd locals;
System V: reserved stack not freed, red zone and vector registers overwrite pushed registers; 64-bit procedures without FRAME and WIN64:2: epilogue frees what was not reserved. By reading: `cntxmm` uninitialised for FRAME without FRAME:AUTO;
ZMM without reserved stack uses a format with a missing argument.

### Assume (C56-C58) — `assume.c`, `parser.c` check_assume/seg_override/segm_override/HandleStringInstructions, `fixup.c` SetFixupFrame
Model: the table of segment registers as a function, events (items of ASSUME, ASSUME NOTHING, change of the current segment), search_assume, GetAssume, the frame, the override. Segments and groups are numbers; the group of a segment and FLAT do not change during a history (in
the program groups are usually defined before; the code compares pointers at the time of use). Spec: `assumedTo` reads the history backwards, register by register; World gives linear addresses of segments, groups and the contents of segment registers. `C56_label_is_reached` combines the choice with
C19's theorem about the emitted bytes and their decoding. Found: `SEG16:[0]` uses DS if DS is assumed to FLAT, whatever SEG16 is; MOVS ignores an override of its destination if the source has one, and refuses `es:` for the destination; ASSUME AH:ERROR forbids `[esp]` (index 4 of the
table is shared); memory_operand reads StdAssumeTable[16] for RIP and up to [31] for vector indices (out of bounds). Not modelled: types of general registers (ASSUME EBX:PTR T), .MODEL's ASSUME lines, MOVABS.

### Loop (C59-C61) — `loop.c`, the argument part of `expans.c` RunMacro, `label.c` 58-107, `expreval.c` 1089-1096
Model: the state of the assembler is an arbitrary type, the body of a loop an arbitrary function on it that says whether EXITM was met; the evaluator is a function of the state. The loops are those of LoopDirective with 32-bit counters. FORC builds the two-character buffers and runs RunMacro's copying loop (trim, `!`); FOR takes tokens (items with the blanks behind them, literals, commas). Spec: `times`, `forEach`, the relation `WhileRel`, `chars`, `groups`; anonymous labels by nearest line. Found: counts and conditions are taken modulo 2^32 without an error; `<a> b` loses the blank; `FOR x:REQ, <a, >` is accepted. Not modelled: `%` and `{}` in FOR lists, macro function calls in them, listing, GOTO.

### Invoke (C62, C63) — `invoke.c` PushInvokeParam 3190-4256, InvokeDirective 4259-4705 (32-bit part)
Model: the lines PushInvokeParam and InvokeDirective emit are instructions of a small machine (push, mov/movsx/movzx, lea, sub esp, call, add esp) on registers and a byte-addressed memory; arguments are constants, ADDR expressions, registers, memory operands of any size. Spec: the value an argument has in the state before the INVOKE, the offset at which the procedure finds each parameter. Proof: a step invariant over the list of arguments (stack pointer, pushed dwords, EAX use). Found, each as a theorem with a concrete program: structures of sizes 3, 5, 7, 9, ... are pushed with too few bytes; a DWORD variable given for a QWORD parameter pushes 4 bytes; an XMM register pushes 4; with STACKBASE:ESP arguments addressed through ESP are read from the wrong place after the first push; `[eax]` after an ADDR argument is read through the overwritten EAX, and the flag that should refuse EAX later is reset; STDCALL with VARARG is cleaned by nobody; C VARARG with a fixed 10-byte argument adds 2 too many; 6-byte structures as VARARG are counted as 6 though 8 are pushed. Not modelled: FAR, reg::reg, string and float literals, FASTCALL/VECTORCALL/SYSVCALL/DELPHICALL, 16- and 64-bit modes.

### Ins (C64, C65) — classic code generator for integer instructions: `parser.c` ParseLine, process_register, memory_operand, idata_nofixup, check_size, `codegen.c` codegen ... output_opc, `H/instruct.h`
Model: `plan` (what depends on kinds, sizes and ranges of the operands: operand types, check_size, the search through the rows of instruct.h with their order) and `encode` (register numbers, ModRM as in C19, constants). Spec: a decoder for the processor (prefixes, REX, opcode maps, groups, operand sizes, ModRM) written from the manual; it shares only mnemonics and register names with the model. Proof: (1) constants are classified by nine comparisons, which leaves finitely many kinds of operands; `check` compares plan and opcode map for all of them (kernel evaluation, `Fin16/32/64`), and `Kinds`/`All` prove that every operand list of any length is covered; (2) every row and mnemonic agrees with the opcode map (`Rows`); (3) register fields, REX, ModRM and constants are proved for all numbers (`Lemmas`, `Ops`, `Enc`). Findings (theorems): `add eax, -100000005h` is `add eax,-5`; `add rax, 80000000h` and `push 80000000h` use the sign-extended constant; `add ax, byte ptr 200` adds -56; `add [ebx], 0FFFFh` writes `add dword ptr [ebx], -1`; `xchg eax,eax` in 64-bit code writes NOP; `add [ebx], word ptr 5` is a byte addition; `add ax, word ptr 100000` is accepted. Not modelled: symbols and fixups, segment/control registers, `[5]` without segment register, CodeGenV2 instructions (C45, C46), LOCK and REP, cpu checks.

### Invoke64 (C66, C67) — `invoke.c` ms64_fcstart, ms64_fcend, ms64_param (FASTCALL), the parts of PushInvokeParam and InvokeDirective for 64-bit FASTCALL
Model: `param` generates the instructions for one argument and updates `regs_used`; `invoke` orders the arguments (VARARG from the last to the first, then the declared ones), and adds the stack adjustment. Spec: a machine (16 registers with their parts, XMM registers, byte memory) and the places of the Windows x64 calling convention (`found`). Proof: each argument's code writes only RAX, its own parameter register or its own stack slot (`Frame1`), local correctness of the value (`Value`), and an induction over the argument order with the invariant that everything not in `regs_used` still has its old value (`Step`). Findings (theorems): `invoke f, xmm1, xmm0` passes XMM1 twice; `invoke f, 5500h, ch` passes 55h; `BIG equ 100000000h`, `invoke f, BIG` passes 0; NULL or FALSE with another value passes 0 in registers only; `invoke f, rbx` or `invoke f, 1` for a REAL8 parameter sets RCX and leaves XMM0; a REAL4 variable for a REAL8 parameter is read with 8 bytes; ADDR for a REAL8 parameter passes the contents; arguments that use RSP are read after RSP was changed; untyped memory for a 16-byte structure as fifth argument passes 8 bytes of it; an address to call in RCX is overwritten without a message; a DWORD register is accepted for a QWORD parameter among the first four but not behind them.

### Switch (C68) — `hll.c` HllStartDir (`.SWITCH`), HllExitDir (`.CASE`, `.DEFAULT`, `.BREAK`), HllEndDir (`.ENDSWITCH`), bubblesort
Model: the directives collect the cases and labels (`dirs`); `.ENDSWITCH` sorts them (`sortCases`), chooses the method (`method`), writes the rows of the tables as text items and commas which the data directive parses (`table1`, `table2`, `table6`, `tableL`, `tableV`, `parseRows`), and writes the code (`dispatch`). Spec: a processor for the instructions written (registers, stack, comparison, memory that holds the tables), and the meaning of a block on its lines (`entry`, `run`). Proof: the sort is a permutation in ascending order; the tables are functions of the value (`jump_lookup`, `both_lookup`); every method goes to the label of the value (`chain_spec`, `jump_spec`, `both8_spec`, `both16_spec`, `tree_spec` - the last by induction over the interval of the binary search); the label of a case stands in front of its statements (`dirs_hit`); the statements are executed as in the block (`body_run`). Findings (theorems, all by evaluation of the model on a block): constants 0..73, 75, 76 lose a label, value 75 executes the statements of 76; with 75 constants the byte table refers to an entry that does not exist; 64-bit constants are printed with %d for the binary search; constants 2^29 apart get a jump table with 2^29 entries; `.CASE` behind statements without `.BREAK` gets the label of the `.CASE` before; a block that does not end with `.BREAK` starts again, for ever; `.SWITCH EAX` in 64-bit code uses RAX as index; `.SWITCH 5` is a switch on EAX; 80 constants with the same statements are refused because a row starts with a comma. Not modelled: the assembler style, a block without `.CASE` (works on data of an earlier block), `.CASE ecx` (taken as constant 0), the contents of other lines between the directives.

### Equate (C69, C70) — `equate.c`, `fastpass.c`, `label.c` CreateLabel, `assemble.c` OnePass
Model: the value fields and flags of a symbol (`value`, `value3264`, `segment`, `isequate`, `variable`, `issaved`, `asmpass`), the directives as functions on them, the line store (lines and saved variables), and the passes. The evaluator of expressions and the location counter are parameters (`World`), so the theorems hold for every evaluator. Spec: `reading`, the values of names when the source is read from top to bottom in each pass. Proof: a simulation (`step_ok`: the view of the symbols is the environment), an invariant of the first pass (`run_below`: the lines stored are those below the head, and every variable of the head that is changed is saved with its value at the end of the head), and induction over the passes (`replay_pass`). C70: induction over the lines with the pass number and value of the constant (`equ_run`), acceptance by the flags of each sort of name (`run_acc`). Findings: theorems `C69_defect_...`, `C70_defect_...` in Examples. Not modelled: text macros, predefined and external symbols, local labels, types, backpatching, phase errors.

### Real10 (C71) — `tbyte.c`, `atofloat.c` case 10
Model: all functions of tbyte.c on words (lists of 32-bit words for the 192-bit product, shifts and carries as in the code), the tables, and the parser of `strtotb` on characters. Spec: `Lit` (sign, digits, exponent), its text, its value as a rational number, and the value and unit of ten bytes. Proof: words to numbers (`norm3_spec`, `add192_spec`, `product_spec`); one product has relative error 2^-96 (`multiply_val`); the tables are within 2^-85 (checked by the kernel on natural numbers, `tabPlus_ok`, `tabMinus_ok`); induction over the table keeps error and range (`mulPow_near`); the digits: invariant `Inv` with the unit of the last digit, so that dropped digits cost at most 2^-92; the last rounding and the limits of the exponent (`lit_fin`). Findings: theorems `C71_defect_...` in Examples. Not modelled: int_32 wrap of the exponent counters (2^31 digits), REAL4 and REAL8 (the C library's strtod), hexadecimal real designators.

### Macho (C72, C73) — `macho64.c`
Model: the whole writer, record by record, as one byte list; the string list with macho_add_string's indices and offsets; lookups by name as in the code. Spec: an independent reader that walks the load commands by their cmdsize (`walk`, `secAt`, `symbols`, `partition`, `relocsAt`), the table of the four segments (`placeOf`), addresses and numbers of segments by recursion over the segment list (`addrOf`, `numberOf`), and the expected symbol entry (`entryOf`). Proof: `read` locates every piece in the file; `entries_get`, `section64s_get` give the records by index; `strings_eq` shows that macho_add_string numbers the names consecutively (`numbered`), hence `symbolIndex_get` and `string_at`; sections, relocations and symbols are then decoded field by field. The defects are theorems about every module with the offending feature (`C72_defect_other_segment`: the file is that of the module without the segment; `C73_defect_unused_extern`: the excess is 16 bytes per unused external). Not modelled: write errors, int overflow above 2 GB.

### Call, MacroRun (C74, C75) — `expans.c` RunMacro
Call (C74). Model: the loop over parameters and over the tokens of an argument with bracket level, VARARG accumulation and nested calls (mutually recursive with fuel), running the body is a parameter. Spec: an argument is a row of pieces (words, bare words, literals, parenthesised rows, calls of macro functions with arguments again), with a text and a value by structural recursion; `callStmt`, `callFunc` give the meaning. Proof: `Conv` (all sufficiently large fuels give the result), mutual induction over arguments and pieces. Defects are theorems about concrete calls.
MacroRun (C75). Model: the loop over the lines with the conditional-assembly state of `Verif.CondAsm`, findLabel, SkipMacro (only the nesting is tracked), `oldifnesting`, `cntgoto`. Spec: macros as trees of IF blocks (`Code`, `Alts`), big-step meaning up to the next jump (`exec`), `behind` a label, `Runs` as an inductive relation; `SameBlocks` compares the open IF blocks. Proof: `exec_code` by mutual induction (how a text is left, and that skipping its rest closes the blocks it has opened), `round` for one round of the loop, induction over `Runs` and, for the converse, over the number of jumps.

### Cpu, Startup (C76-C78) — `cpumodel.c`, `end.c`
Cpu (C76). Model: `curr_cpu` as the 16-bit set it is, SetCPU bit for bit, the three checks (instruction, register, second table), `@Cpu`, the default offset size. Spec: a setting is a level, a privileged mode, a coprocessor and a set of extensions; a directive has a meaning, an instruction a need. Proof: every reachable word is the encoding of a setting (induction over the directives), the masks are compared field by field.
Findings: `.XMM` accepts 3DNow instructions (extension sets are compared as numbers); the instructions of H/InstrTableV2.h are never checked against CPU, FPU or extensions; `.MMX` takes back `.XMM`; after `.MODEL` a CPU too small for the open segment is not reported; `@Cpu` lacks the 586 bit for `.686`/`.X64`.
Startup (C77). Model: FindToken over the word tables, the loop over the optional arguments, the modes, the predefined symbols. Spec: memory models by name, arguments in any order (`ArgsWritten`, `Acceptable`). Finding: the tables `ModelAttr` and `ModelAttrValue` exchange OS_DOS and OS_OS2.
Startup (C78). Model: the generated lines. Spec: a small machine (`step`), the states in which an interrupt is taken (`interruptible`). Proof: execution of the lines with symbolic registers, modular arithmetic for the stack address.

### TextExp (C79, C80) — `expans.c` ExpandText, ExpandTMacro, RebuildLine
C79. Model: the character loop with the stack of texts as recursion (levels left), `quoted_string`, the removal of `&`, the error at 20 levels. Spec: a line as a row of parts (names with or without `&`, other characters) that is read as written (`Line`), its meaning (`Means`) with the open string and the depth. Proof: induction over the meaning with the state of the loop; conversely every row has a meaning or the error count grows (strong induction on the levels), so the error is reported exactly for lines without a meaning. Finding: a text macro is replaced behind a digit also, inside of a number such as `10h`.
C80. Model: ExpandTMacro on rows of tokens with fuel for the rescans; the brackets of RebuildLine on character codes, read back by `lit`, the model of the tokenizer of C50. Spec: `Full`, the expansion with its depth; the value itself. Proof: `Yields` (all sufficiently large fuels), induction with a prefix that is free of text macros; induction over the value for the brackets. Finding: `\;` inside of the value makes the tokenizer read the next source line.

### MzHdr (C81) — `bin.c` GetImageSize, bin_write_module (header, file length), `option.c` SetMZ
Model: the loop of GetImageSize with `first`, `vsize`, `size`, the header fields as 16 bits, the writes as the length of the file; segments and layout are those of C23. Spec: what DOS makes of the fields: file length from pages and bytes in the last page, header in paragraphs, memory, linear addresses; `Stored`: segments with initialised bytes or in front of one. Proof: induction over the segments for both image sizes (upper bound, attained) and for the length written; C81_file combines them with the layout theorem of C23. Findings: SS is rounded up for a stack segment not at a paragraph and SP is not reduced, the top of the stack lies behind the segment; the number of relocations is a `uint_16`, with 65536 the header buffer is overrun.

### SimSeg (C82) — `simsegm.c` SimplifiedSegDir, SetSimSeg, AddToDgroup, close_currseg, ModelSimSegmInit
Model: the directives as generators of lines, with the bits `simseg_init` and the question whether a segment is defined. Spec: an interpreter of SEGMENT, ENDS, GROUP, ASSUME and ORG with an error for changed attributes and for ENDS of another segment; programs as sequences of simplified directives and lines of their own. Proof: invariant "initialised segments are defined", preserved by every step; `Grouped`, the same for DGROUP; monotonicity of definitions and of the group. Finding: -Sp does not change the alignment of near segments with 16-bit models.

### OrgFlat (C83) — `orgfixup.c`, `posndir.c` OrgDirective, `assemble.c` OutputByte and SetCurrOffset, `bin.c` bin_write_module (FLAT)
Model: pass 1 for `start_loc`, the last pass with location counter, buffer and table of ranges, the bytes written. Spec: the emitted bytes; `Forward`. Proof: invariant of the last pass (ranges end below the location counter, the bytes outside of them are those emitted). Findings: the table has addresses but is asked with positions in the buffer, so that after an ORG at the start other bytes are dropped; an ORG with a label compares the constant only.

### FpEmu (C84) — `fpfixup.c`, `codegen.c` output_opc, `assemble.c` OutputByte, `omf.c` omf_FlushCurrSeg
Model: the LEDATA records with their fixups, the buffer, the external symbols; the FWAIT, NOP, size and segment prefixes of `output_opc`. Spec: a linker that adds the values of the emulator library to the words at the fixups of each record (an error if the word is not in the record), the interrupts, the symbols. Proof: invariant (finished records and buffer link to the expected bytes), locality of the patches. The values of the library are an assumption about the linker's input, not part of /repo.

{"id": "C01", "title": "Conditional assembly selects exactly the right lines", "statement": "For every source text whose IF/ELSEIF/ELSE/ENDIF directives are properly nested, the lines that are assembled are exactly those of the first branch whose condition holds (or the ELSE branch) of every enclosing IF block; conditions inside skipped blocks or after a taken branch are never evaluated; nothing outside IF blocks is skipped; and after the matching ENDIF the assembler is back in the state it had before the IF.", "quantifier": "every nesting tree of IF-type blocks up to the supported nesting depth, every assignment of truth values to the conditions", "why_tests_cant": "nesting trees and condition valuations are unbounded; tests only sample shapes", "anchors": ["condasm.c:conditional_assembly_prepare", "condasm.c:CondAsmDirective", "condasm.c:CondCheckOpen"]}
{"id": "C02", "title": "Malformed conditional blocks are diagnosed", "statement": "A stray ELSE/ELSEIF/ENDIF without open IF, an ELSE or ELSEIF after the ELSE of the same block, nesting deeper than the limit, and a block still open at the end of the module are each reported as an error, for every history of conditional directives.", "quantifier": "every sequence of conditional directives", "why_tests_cant": "the error depends on the entire directive history", "anchors": ["condasm.c:conditional_assembly_prepare", "condasm.c:CondCheckOpen"]}
{"id": "C03", "title": "Integer literals have their positional value", "statement": "A digit string in radix 2..16 evaluates to its mathematical value modulo 2^128, and exactly to its value when that is below 2^128.", "quantifier": "every digit string of every length in every supported radix", "why_tests_cant": "strings of unbounded length", "anchors": ["expreval.c:myatoi128"]}
{"id": "C04", "title": "Number-to-text conversion round-trips", "statement": "Converting any 32-bit (or 64-bit) value to text in a radix 2..16 (as %expr, text macros, listing do) and reading the text back gives the same value; a leading digit 0 is added exactly when asked for and the first digit is a letter.", "quantifier": "all 2^32/2^64 values, all radices", "why_tests_cant": "value space far too large for tests", "anchors": ["expans.c:myltoa", "expans.c:myqtoa", "expreval.c:myatoi128"]}
{"id": "C05", "title": "OMF records are well formed", "statement": "Every OMF record written has a length field equal to the number of bytes following it and the byte sum of the whole record is 0 modulo 256, whatever the contents; oversized contents abort rather than overflow the record buffer.", "quantifier": "all record types and all contents", "why_tests_cant": "contents are arbitrary byte strings", "anchors": ["omfint.c:WEndRec", "omfint.c:PutMem", "omfint.c:omf_write_record"]}
{"id": "C06", "title": "OMF indices and COMDEF numbers decode uniquely", "statement": "OMF index fields (<= 0x7FFF) and COMDEF length numbers are emitted in a form from which a standard OMF reader recovers exactly the value and the following bytes.", "quantifier": "all index values, all 32-bit COMDEF numbers, all following bytes", "why_tests_cant": "value space", "anchors": ["omfint.c:PutIndex", "omffixup.c:putIndex", "omf.c:put_comdef_number", "omf.c:get_size_of_comdef_number"]}
{"id": "C07", "title": "OMF fixup sub-records carry frame, target and displacement losslessly", "statement": "For every relocation a linker parsing the emitted FIXUPP/MODEND subrecord recovers the frame method and datum, the target method and datum and the displacement.", "quantifier": "all frame/target combinations and displacement values", "why_tests_cant": "combinatorial space", "anchors": ["omffixup.c:TranslateLogref", "omffixup.c:OmfFixGenFix"]}
{"id": "C08", "title": "ALIGN pads to the boundary with the right filler", "statement": "ALIGN n / EVEN (n a power of two) advances the location counter to the least multiple of n not below it; in code segments the filler is a sequence of complete NOP instructions of the current mode totalling exactly the gap, in data segments zeros; non powers of two are rejected.", "quantifier": "all offsets, all alignments, all three modes", "why_tests_cant": "offset x alignment space", "anchors": ["posndir.c:AlignDirective", "posndir.c:AlignCurrOffset", "posndir.c:fill_in_objfile_space"]}
{"id": "C09", "title": "Name decoration follows the calling convention and is injective", "statement": "The external name of a public symbol is the documented decoration of its source name for the language type (C '_name', STDCALL '_name@N', PASCAL upper case, FASTCALL '@name@N', VECTORCALL 'name@@N', ...), and symbols with different names never collide through decoration within a case-preserving convention.", "quantifier": "all symbol names, parameter sizes, option settings", "why_tests_cant": "names are unbounded", "anchors": ["mangle.c:Mangle"]}
{"id": "C10", "title": "Generated lines are assembled in the order they were generated", "statement": "Lines queued by HLL/INVOKE/PROC expansion are processed first-in first-out, each exactly once, and the queue is empty afterwards.", "quantifier": "every sequence of queued lines, interleaved with runs", "why_tests_cant": "histories are unbounded", "anchors": ["lqueue.c:AddLineQueue", "lqueue.c:RunLineQueue", "queue.c:QEnqueue"]}
{"id": "C11", "title": "The symbol table behaves as a finite map with scoping", "statement": "After any history of definitions, lookups, PROC entries and exits, looking up a name returns the innermost visible definition of that name (local before global), or nothing if none was made; names are compared case-sensitively or insensitively according to the option; hash collisions are never observable.", "quantifier": "every history of operations, every hash collision pattern", "why_tests_cant": "histories and names unbounded", "anchors": ["symbols.c:SymFind", "symbols.c:SymLookup", "symbols.c:SymLookupLocal", "symbols.c:SymGetLocal", "symbols.c:SymSetLocal", "symbols.c:SymAddGlobal"]}
{"id": "C12", "title": "Reserved-word table: keyword disable/rename/mode switch", "statement": "After any sequence of OPTION NOKEYWORD, RENAMEKEYWORD and 32/64-bit mode switches a name is recognised as a keyword iff it is the current name of an enabled keyword, and it maps to that keyword.", "quantifier": "every history of operations", "why_tests_cant": "histories unbounded", "anchors": ["reswords.c:FindResWord", "reswords.c:AddResWord", "reswords.c:RemoveResWord", "reswords.c:RenameKeyword", "reswords.c:Set64Bit", "reswords.c:DisableKeyword"]}
{"id": "C13", "title": "Constant expressions are parsed by the documented precedence", "statement": "Evaluating a token string of a constant expression gives the value of the expression tree that the documented precedence and left-associativity rules assign to it; parentheses override.", "quantifier": "every well formed constant expression of any depth", "why_tests_cant": "expression trees are unbounded", "anchors": ["expreval.c:evaluate", "expreval.c:get_precedence", "expreval.c:EvalOperand"]}
{"id": "C14", "title": "Constant arithmetic is two's complement 64-bit with MASM semantics", "statement": "+, -, *, /, MOD, SHL, SHR, AND, OR, XOR, NOT, EQ..GE, HIGH, LOW, HIGHWORD, LOWWORD on constants give the documented result for all operand values, and division by zero is an error and never a crash.", "quantifier": "all pairs of operand values", "why_tests_cant": "2^128 operand pairs", "anchors": ["expreval.c:calculate", "expreval.c:plus_op", "expreval.c:minus_op"]}
{"id": "C15", "title": "String functions: SUBSTR/INSTR/SIZESTR/CATSTR", "statement": "@SubStr/@InStr/@SizeStr/@CatStr (and the directives) return the mathematical substring / first occurrence at or after start / length / concatenation, and report an error for out of range positions.", "quantifier": "all strings and positions", "why_tests_cant": "strings unbounded", "anchors": ["string.c:SubStrFunc", "string.c:InStrFunc", "string.c:SizeStrFunc", "string.c:CatStrFunc"]}
{"id": "C16", "title": "Macro parameter substitution", "statement": "Expanding a macro body line replaces each occurrence of a parameter by the corresponding argument text and each LOCAL by a label unique to this expansion, and leaves all other text unchanged.", "quantifier": "all body lines, parameter lists, arguments", "why_tests_cant": "unbounded text", "anchors": ["macro.c:store_placeholders", "macro.c:replace_parm", "macro.c:fill_placeholders"]}
{"id": "C17", "title": "Near/short branches reach their label", "statement": "Whenever a branch to a label in the same segment is emitted without relocation, the instruction address + its length + the sign-extended displacement equals the label address, and the short form is used exactly when the displacement fits in a signed byte (unless overridden); otherwise an error is reported.", "quantifier": "all branch/label positions, modes, prefixes", "why_tests_cant": "positions range over 2^32", "anchors": ["branch.c:process_branch", "branch.c:jumpExtend"]}
{"id": "C18", "title": "Pass iteration: code emitted in the last pass uses stable label addresses", "statement": "If assembly ends without error, then every branch to a code label goes to the address at which the label is finally placed, whatever the label offsets were in earlier passes; data and padding are laid out as written.", "quantifier": "all programs, all number of passes", "why_tests_cant": "pass histories unbounded", "anchors": ["assemble.c", "backptch.c:BackPatch", "backptch.c:DoPatch", "label.c:CreateLabel"]}
{"id": "C19", "title": "Memory operands are encoded faithfully", "statement": "Decoding the ModRM/SIB/displacement/REX bytes emitted for a memory operand gives back exactly the base, index, scale and displacement of the source operand, for 16-, 32- and 64-bit addressing.", "quantifier": "all register combinations, scales and displacements", "why_tests_cant": "combinatorial x 2^32", "anchors": ["parser.c:set_rm_sib", "codegen.c:output_data", "codegen.c:output_opc"]}
{"id": "C20", "title": "Data directives store values little endian and reject overflow", "statement": "DB/DW/DD/DF/DQ/DT emit the low bytes of the value in little endian order when the value is representable (signed or unsigned) and report an error when it is not; n DUP(x) emits n copies; strings in DB in order, wider items reversed.", "quantifier": "all values, dup counts and strings", "why_tests_cant": "value space", "anchors": ["data.c:data_item", "data.c:little_endian"]}
{"id": "C21", "title": "Structure layout is sound", "statement": "In a STRUCT, fields do not overlap, appear in order, each field's offset is a multiple of min(field alignment, struct alignment), the size covers all fields and is padded to the struct alignment; in a UNION all offsets are 0 and the size is the max.", "quantifier": "every list of fields and alignments", "why_tests_cant": "unbounded field lists", "anchors": ["types.c:CreateStructField", "types.c:AlignInStruct", "types.c:UpdateStructSize", "types.c:EndstructDirective"]}
{"id": "C22", "title": "Records: bit fields tile the record", "statement": "RECORD fields occupy disjoint contiguous bit ranges, last field at bit 0; MASK and WIDTH describe them; total width determines the size.", "quantifier": "every list of field widths", "why_tests_cant": "unbounded", "anchors": ["types.c:RecordDirective", "expreval.c:GetRecordMask"]}
{"id": "C23", "title": "BIN/MZ/PE layout does not overlap segments", "statement": "The file and image offsets assigned to segments are aligned as requested, in order, and do not overlap.", "quantifier": "every list of segments with alignment and size", "why_tests_cant": "unbounded", "anchors": ["bin.c:CalcOffset", "bin.c:pe_set_values"]}
{"id": "C24", "title": "BIN fixups are resolved to the right value", "statement": "In BIN output every fixup location ends up containing the target's address (or relative displacement) in the layout.", "quantifier": "all fixups", "why_tests_cant": "value space", "anchors": ["bin.c:DoFixup"]}
{"id": "C25", "title": "PE base relocation table is well formed and complete", "statement": "The .reloc blocks list exactly the image locations needing relocation, grouped by 4 KB page, each block 4-byte aligned with the correct block size.", "quantifier": "every set of fixups", "why_tests_cant": "unbounded", "anchors": ["bin.c:pe_set_base_relocs"]}
{"id": "C26", "title": "COFF string table references resolve", "statement": "Every long symbol/section name reference in the COFF symbol table points to the NUL terminated copy of that name in the string table whose size field is right.", "quantifier": "every list of symbols", "why_tests_cant": "unbounded", "anchors": ["coff.c:Coff_AllocString", "coff.c:coff_write_symbols"]}
{"id": "C27", "title": "ELF symbol table order and string references", "statement": "Local symbols precede global ones, sh_info is the index of the first global symbol, every st_name points to its name.", "quantifier": "every set of symbols", "why_tests_cant": "unbounded", "anchors": ["elf.c:set_symtab_values", "elf.c:set_symtab32", "elf.c:set_symtab64"]}
{"id": "C28", "title": "HLL conditions branch correctly", "statement": "The compare/jump code generated for a .IF/.WHILE condition transfers control to the false label iff the condition is false, with C short-circuit semantics of && || !, and falls through otherwise.", "quantifier": "every condition tree, every machine state", "why_tests_cant": "unbounded trees", "anchors": ["hll.c:GetExpression", "hll.c:GetAndExpression", "hll.c:GetSimpleExpression", "hll.c:InvertJump", "hll.c:ReplaceLabel"]}
{"id": "C29", "title": "Local allocator returns disjoint aligned blocks", "statement": "Every block returned by the assembler's local heap is pointer aligned, lies inside a block obtained from the OS and is disjoint from all other returned blocks.", "quantifier": "every allocation history", "why_tests_cant": "histories unbounded", "anchors": ["memalloc.c:LclAlloc"]}
{"id": "C30", "title": "Procedure frame: locals and parameters do not overlap", "statement": "Stack offsets assigned to LOCALs and parameters of a PROC are pairwise disjoint, aligned, and inside the allocated frame.", "quantifier": "every list of locals/params", "why_tests_cant": "unbounded", "anchors": ["proc.c:LocalDir", "proc.c:ParseParams", "proc.c:SetLocalOffsets"]}
{"id": "C31", "title": "PUSHCONTEXT/POPCONTEXT restore exactly what was saved", "statement": "After any balanced sequence of PUSHCONTEXT/POPCONTEXT the restored items (ASSUMES, RADIX, LISTING, CPU) equal their values at the matching push; unbalanced pops are errors.", "quantifier": "every history", "why_tests_cant": "unbounded", "anchors": ["context.c:ContextDirective"]}
{"id": "C32", "title": "Instruction lookup finds the first matching form", "statement": "The V2 code generator's hashed lookup returns the first table entry whose mnemonic and operand types match, independent of hash collisions.", "quantifier": "every table and query", "why_tests_cant": "hash collisions", "anchors": ["codegenv2.c:LookupInstruction", "codegenv2.c:InsertInstruction"]}
{"id": "C33", "title": "Conditions of IF-type directives have their documented truth value", "statement": "IF/IFE is decided by whether the operand's value is nonzero/zero; IFDEF/IFNDEF by whether the symbol is defined; IFB/IFNB by whether the text is blank; IFDIF/IFIDN(I) by whether the two texts differ (ignoring case for the I forms); IF1 holds; each acceptable condition is evaluated without diagnostic.", "quantifier": "all operand values and texts", "why_tests_cant": "value and text space unbounded", "anchors": ["condasm.c:CondAsmDirective", "condasm.c:check_blank", "condasm.c:check_dif"]}
{"id": "C34", "title": "Numbers in generated lines are independent of .RADIX", "statement": "A number inserted into a generated source line (%d/%u of the line generator) is read back as the same value whatever radix is in force.", "quantifier": "all 32-bit values, all radices", "why_tests_cant": "value space", "anchors": ["lqueue.c:AddLineQueueX", "lqueue.c:BuildCodeLine"]}
{"id": "C35", "title": "Numeric macro argument %expr", "statement": "A macro argument %expr is replaced by text that denotes the value of the constant expression in the current radix.", "quantifier": "all 64-bit values, all radices", "why_tests_cant": "value space", "anchors": ["expans.c:RunMacro", "expans.c:myltoa"]}
{"id": "C36", "title": "Every relocation of a data record is written exactly once", "statement": "In OMF output the relocations belonging to a data record are all written, in order, in FIXUPP records that do not exceed the record size; 16-bit and 32-bit relocations go to records of their kind, and a linker reading them back sees each relocation once.", "quantifier": "all lists of relocations of any length", "why_tests_cant": "unbounded lists; record splitting boundary depends on the sizes of all previous subrecords", "anchors": ["omf.c:omf_write_fixupp", "omffixup.c:OmfFixGenFix"]}
{"id": "C37", "title": "OMF data records reproduce the segment contents", "statement": "For any sequence of emitted bytes, unsplittable items with relocations, and ORG/ALIGN jumps, the data records written describe exactly the emitted bytes at their addresses, are within the size limit, and each relocation lies inside the data record it follows.", "quantifier": "all sequences of output operations", "why_tests_cant": "unbounded histories; flush boundaries depend on the whole history", "anchors": ["assemble.c:OutputByte", "assemble.c:OutputBytes", "assemble.c:SetCurrOffset", "omf.c:omf_write_ledata"]}
{"id": "C38", "title": "The pass loop ends", "statement": "For every source the assembler stops after finitely many passes, with an object file or an error message.", "quantifier": "all sources", "why_tests_cant": "termination over unboundedly many passes", "anchors": ["assemble.c:AssembleModule", "backptch.c:DoPatch"]}
{"id": "C39", "title": "A branch to a data label in the code segment reaches it", "statement": "jmp near ptr X, where X is a data definition in the same segment, goes to X or an error is reported.", "quantifier": "all programs with branches to data labels", "why_tests_cant": "all positions and passes", "anchors": ["branch.c:process_branch", "H/symbols.h:asmpass", "data.c:data_dir"]}
{"id": "C40", "title": "Wide string literals are the UTF-16 form of the UTF-8 source text", "statement": "With OPTION LITERALS/CODEPAGE, a well-formed UTF-8 string is emitted as the UTF-16 encoding of the same characters; no input makes the conversion write more code units than the buffer has.", "quantifier": "all byte strings, all Unicode texts", "why_tests_cant": "unbounded texts, all code points", "anchors": ["string.c:UTF8toWideChar", "data.c:data_item", "invoke.c:PushInvokeParam"]}
{"id": "C41", "title": "COFF relocations refer to their symbols", "statement": "Reading a COFF object file, the relocations of each section are exactly its fixups with a symbol, in order, with the right address and type, and the symbol table index of each is the entry of the fixup's symbol (or its section); more than 65535 relocations use the extended count; an ALIAS's auxiliary record refers to its substitute.", "quantifier": "every module: every list of sections, fixups and symbols", "why_tests_cant": "indices depend on everything before; unbounded", "anchors": ["coff.c:SetSymbolIndices", "coff.c:coff_write_fixups", "coff.c:coff_write_symbols", "coff.c:coff_write_section_table"]}
{"id": "C42", "title": "COFF section headers locate the section contents", "statement": "In a COFF object file the raw data pointer and size of each initialised section's header locate exactly the bytes assembled into it; uninitialised sections have no raw data.", "quantifier": "every list of sections", "why_tests_cant": "layout pass and write pass must agree for unbounded lists", "anchors": ["coff.c:coff_write_section_table", "coff.c:coff_write_data"]}
{"id": "C43", "title": "ELF sections are found with their names, attributes and contents", "statement": "Reading an ELF object written by UASM, section i+1 has the name (converted class name or ALIAS), type, flags, size and alignment of the program's i-th segment and exactly its bytes (ORG gaps are zero); the header has the right class, machine and section count.", "quantifier": "every list of sections, 32- and 64-bit", "why_tests_cant": "layout, name table and headers are computed in separate loops that must agree for unbounded lists", "anchors": ["elf.c:elf_write_section_table32", "elf.c:elf_write_section_table64", "elf.c:set_shstrtab_values", "elf.c:elf_write_data", "elf.c:elf_write_module"]}
{"id": "C44", "title": "ELF relocations refer to their symbols", "statement": "Each section with fixups has exactly one relocation section, linked to it and to the symbol table, that lists its fixups in order with location, ABI relocation type, the target's symbol table entry and addend; after linking, a field refers to the symbol plus the programmed displacement.", "quantifier": "every list of sections, fixups and symbols, 32- and 64-bit", "why_tests_cant": "symbol indices depend on everything before; unbounded", "anchors": ["elf.c:write_relocs32", "elf.c:write_relocs64", "elf.c:set_symtab_values", "fixup.c:store_fixup"]}
{"id": "C45", "title": "Addresses are encoded as written", "statement": "For an operand [base + index*scale + displacement] with registers the mode has, the emitted ModRM, SIB and displacement bytes (with the prefix bits) make the processor compute exactly that address, for every displacement, and such an operand is never rejected.", "quantifier": "every base, index, scale, displacement and symbol reference, 32- and 64-bit code", "why_tests_cant": "all register combinations and all displacements; special encodings (rbp, rsp, r12, r13, no base) interact", "anchors": ["codegenv2.c:BuildMemoryEncoding", "codegenv2.c:CompDisp", "codegenv2.c:BuildREX"]}
{"id": "C46", "title": "Instructions are emitted as the processor manual defines them", "statement": "For every instruction of the V2 code generator's table and every operands of its types, the bytes emitted are exactly one complete instruction of the manual's form for that mnemonic, with the registers, address, immediate and segment override that were written; prefixes and overrides the instruction does not take are errors.", "quantifier": "every table row, every register, address and immediate, 32- and 64-bit code", "why_tests_cant": "367 rows times all operand values", "anchors": ["codegenv2.c:CodeGenV2", "codegenv2.c:BuildVEX", "codegenv2.c:BuildModRM", "codegenv2.c:BuildREX", "H/InstrTableV2.h"]}
{"id": "C47", "title": "AVX-512 decorators are encoded as written or rejected", "statement": "An EVEX instruction with mask, zeroing, broadcast or rounding decorators is rejected if the instruction does not take them; otherwise the bytes are the EVEX instruction of the manual with exactly these decorators, registers and address (including the compressed displacement).", "quantifier": "every EVEX row, all operands and decorators", "why_tests_cant": "all decorator combinations and displacements", "anchors": ["codegenv2.c:BuildEVEX", "codegenv2.c:CompDisp", "codegenv2.c:PromoteBroadcast"]}
{"id": "C48", "title": "RIP-relative operands reach the symbol", "statement": "When an instruction of the table refers to a symbol RIP-relatively, the fixup lies on the four displacement bytes and its end-of-instruction distance is right: storing the target's distance gives an instruction that addresses the target, whatever follows the displacement.", "quantifier": "every table row, all operands, addresses and targets", "why_tests_cant": "position depends on prefixes and immediates of every row", "anchors": ["codegenv2.c:CodeGenV2", "fixup.c:CreateFixup"]}
{"id": "C49", "title": "Control-flow directives run the program that is written", "statement": "Assembling nested .IF/.ELSEIF/.ELSE/.ENDIF, .WHILE/.ENDW, .REPEAT/.UNTIL/.UNTILCXZ, .FOR/.ENDFOR, .BREAK and .CONTINUE (with or without .IF) gives instructions which, started at the beginning, arrive at the end in exactly the states in which the structured program ends: conditions are tested in order, .BREAK leaves and .CONTINUE continues the innermost enclosing loop, every generated label is defined once; and a source with directives that do not nest is rejected.", "quantifier": "all programs built from these directives to any depth, all conditions, all machine states, any number of iterations", "why_tests_cant": "programs nest without limit, loops run any number of times, and the labels are created lazily depending on what came before", "anchors": ["hll.c: HllStartDir", "hll.c: HllEndDir", "hll.c: HllExitDir", "hll.c: CheckCXZLines", "hll.c: HllCheckOpen"]}
{"id": "C50", "title": "Source lines are split into tokens without loss", "statement": "Every source line the tokenizer accepts is exactly the concatenation of its tokens' spellings, white space and the trailing comment: no character is dropped, duplicated or moved from one token to another. Conversely a line written as a sequence of names, numbers, quoted strings (quote doubled inside), <> literals (special characters escaped by !) and operators, with any white space between them, a comment behind it and physical lines joined by a backslash or by a trailing comma, gives exactly these tokens with these values. The tokenizer always ends, and the stored token texts are never longer than the line.", "quantifier": "all lines of any length, all splits into physical lines, all positions of white space and comments, all tables of reserved words, every default radix", "why_tests_cant": "a token boundary depends on everything to the left of it on the line (previous token, directive flags, line continuation), and strings can contain any character sequence", "anchors": ["tokenize.c: Tokenize", "tokenize.c: GetToken", "tokenize.c: get_string", "tokenize.c: get_id", "tokenize.c: get_special_symbol", "tokenize.c: ConcatLine", "tokenize.c: IsMultiLine"]}
{"id": "C51", "title": "COMMENT blocks hide exactly their lines", "statement": "The directive COMMENT d hides the rest of its line if d occurs on it again, otherwise all following lines up to and including the first one that contains d; none of these lines gives a token, whatever they contain, and the line behind the block is read normally.", "quantifier": "all delimiters, all line contents, any number of lines in the block", "why_tests_cant": "the block extends over an unbounded number of lines with arbitrary content", "anchors": ["tokenize.c: StartComment", "tokenize.c: Tokenize"]}
{"id": "C52", "title": "Unwind data mean what the directives say", "statement": "For every sequence of unwind directives (.ALLOCSTACK, .PUSHREG, .PUSHFRAME, .SAVEREG, .SAVEXMM128, .SETFRAME) that the assembler accepts, the UNWIND_INFO in .xdata, read by the rules of the Windows x64 ABI, lists exactly these operations with their operands, each at the end of the instruction in front of it, in descending order, with the right prologue size, frame register, frame offset and handler.", "quantifier": "every sequence of instructions and directives, every operand value, every length of the instructions", "why_tests_cant": "the encoding depends on the size of each operand and on the number of directives; wrong unwind data only show when an exception passes through the procedure", "anchors": ["proc.c: ExcFrameDirective", "proc.c: WriteSEHData"]}
{"id": "C53", "title": "Unwinding a procedure with a generated prologue restores the caller", "statement": "If the operating system unwinds a FRAME procedure with a generated prologue, at any instruction boundary of the prologue or anywhere in the body, it finds the stack pointer and the non-volatile registers of the caller.", "quantifier": "every USES list, every size of locals and reserved stack, every parameter list, every point of the prologue, every body that keeps the saved values, every machine state", "why_tests_cant": "exceptions can occur at every instruction; a wrong offset only matters when an exception passes through", "anchors": ["proc.c: write_win64_default_prologue_RBP", "proc.c: write_win64_default_prologue_RSP", "proc.c: ExcFrameDirective", "proc.c: WriteSEHData"]}
{"id": "C54", "title": "The generated epilogue undoes the generated prologue", "statement": "RET in a PROC with a generated epilogue restores the stack pointer of the entry, the registers of the USES list and the frame pointer, and changes no other register and no memory, for every calling convention.", "quantifier": "every USES list, frame size, option setting, calling convention; every body that keeps the saved area; every machine state", "why_tests_cant": "combinations of options, register lists and frame sizes; the body is arbitrary", "anchors": ["proc.c: write_win64_default_epilogue_RBP", "proc.c: write_win64_default_epilogue_RSP", "proc.c: write_sysv_default_epilogue_RBP", "proc.c: write_generic_epilogue", "proc.c: pop_register", "proc.c: win64_StoreRegHome"]}
{"id": "C55", "title": "The stack is aligned in the body of a FRAME procedure", "statement": "If a Win64 procedure with a generated prologue is entered with the stack alignment the ABI prescribes, then in its body the stack pointer is a multiple of 16, and every aligned store of an XMM register in its prologue is to a multiple of 16.", "quantifier": "every USES list, every list of locals, every reserved stack size that is a multiple of 16", "why_tests_cant": "alignment depends on the parity of the pushed registers and on the sizes of all locals together", "anchors": ["proc.c: SetLocalOffsets_RBP", "proc.c: SetLocalOffsets_RSP", "proc.c: write_win64_default_prologue_RBP", "proc.c: write_win64_default_prologue_RSP"]}
{"id": "C56", "title": "A memory operand reaches its label through the assumed segment register", "statement": "If an instruction with a label as memory operand is accepted, the segment register that the processor uses for it (given by prefix or by default) is assumed to the segment or group that the fixup is made relative to, so that with registers holding what they are assumed to, the label's address is accessed; the last ASSUME of a register counts; without such a register the operand is refused; no needless prefix is emitted.", "quantifier": "every history of ASSUME directives and segment changes, every set of segments and groups, every label, addressing mode and override, all register contents", "why_tests_cant": "all combinations of assumptions, groups, overrides and addressing modes; a wrong choice shows only at run time", "anchors": ["assume.c: AssumeDirective, search_assume, GetAssume", "parser.c: check_assume, seg_override, segm_override", "fixup.c: SetFixupFrame", "segment.c: UpdateCurrSegVars"]}
{"id": "C57", "title": "Explicit segment overrides are honoured or refused", "statement": "A segment register or segment name written in a memory operand decides which segment register the processor uses, also for operands without label and for string instructions; where the processor cannot do it, the instruction is refused.", "quantifier": "every override, every history of ASSUME, every string instruction and pair of overrides", "why_tests_cant": "combinations of overrides of both operands, and of ASSUME states", "anchors": ["parser.c: segm_override, seg_override, HandleStringInstructions", "assume.c: GetAssume"]}
{"id": "C58", "title": "Registers assumed to ERROR cannot be used, others can", "statement": "After ASSUME reg:ERROR every instruction that uses the register as operand or in an address is refused until another ASSUME for it; registers that were not assumed to ERROR are not refused.", "quantifier": "every history of ASSUME directives, every register", "why_tests_cant": "depends on the whole history of the source", "anchors": ["assume.c: AssumeDirective", "parser.c: process_register, memory_operand"]}
{"id": "C59", "title": "REPEAT and WHILE assemble their body the right number of times", "statement": "REPEAT n assembles its body n times, not at all for n <= 0; WHILE assembles it as long as its expression, evaluated anew before each round, is not 0; EXITM ends the loop at once; all effects of a round are seen by the next one.", "quantifier": "every count or condition, every body (any effect on the assembler's state), every state", "why_tests_cant": "counts and conditions of any size, conditions that depend on what the body did", "anchors": ["loop.c: LoopDirective", "expans.c: RunMacro"]}
{"id": "C60", "title": "FOR and FORC pass each item of their list, in order", "statement": "FORC assembles its body once for each character of its list with the character as argument, !c stands for c; FOR once for each item between commas, without the blanks around it, items in <> without the brackets, empty items as default value or as an error if an argument is required; EXITM ends the loop.", "quantifier": "every argument list, every body", "why_tests_cant": "lists of any length with escapes, blanks, nested brackets and empty items", "anchors": ["loop.c: LoopDirective", "expans.c: RunMacro"]}
{"id": "C61", "title": "@B and @F refer to the nearest anonymous label", "statement": "@B refers to the nearest @@: at or before its line, @F to the nearest behind it; if that one is in another procedure (OPTION SCOPED) the reference is undefined; it never refers to another label, and the labels do not collide with names of the program.", "quantifier": "every source with less than 2^32-1 anonymous labels, every line of it", "why_tests_cant": "any number and arrangement of labels and procedures", "anchors": ["label.c: CreateLabel, GetAnonymousLabel, LabelInit", "expreval.c: get_operand"]}
{"id": "C62", "title": "INVOKE hands each argument to its parameter and calls the procedure", "statement": "After the code of an INVOKE in 32-bit mode ran up to the call, each parameter's place on the stack, as the procedure will address it, holds the value of the argument given for it: constants, addresses, registers and variables, extended with or without sign when the argument is smaller; the call goes to the procedure that was named, and the variables of the program are not changed.", "quantifier": "every prototype (C, STDCALL, SYSCALL, PASCAL, BASIC, FORTRAN; parameters of any size), every list of arguments that is accepted, every machine state", "why_tests_cant": "any number of parameters, mixed sizes and kinds of arguments, any register and memory contents", "anchors": ["invoke.c: PushInvokeParam, InvokeDirective"]}
{"id": "C63", "title": "INVOKE leaves the stack as it found it", "statement": "After an INVOKE in 32-bit mode the stack pointer has the value it had before: what the arguments took is removed exactly once, by the procedure for STDCALL, PASCAL, BASIC, FORTRAN and by the caller for C, SYSCALL and VARARG.", "quantifier": "every prototype and every accepted list of arguments, with any number of VARARG arguments", "why_tests_cant": "any number and sizes of arguments; an error shows only when the code runs", "anchors": ["invoke.c: PushInvokeParam, InvokeDirective"]}
{"id": "C64", "title": "The instruction assembled is the instruction written", "statement": "Whatever bytes the assembler writes for a line with an integer instruction (ADD ... CMP, shifts, NOT ... IDIV, INC, DEC, TEST, XCHG, IMUL, LEA, MOVSX, MOVZX, BT ..., BSF, BSR, CMPXCHG, XADD, SETcc, CMOVcc, SHLD, SHRD, PUSH, POP, INT), the processor, in the mode the code is assembled for, reads exactly these bytes as one instruction: the one written, with its registers, memory operands of the written size and address, and constants equal to the written ones as numbers of the operand size.", "quantifier": "every mnemonic of the list, every operand list of registers, memory operands made of registers and numbers, and constants (with or without PTR), 16-, 32- and 64-bit code", "why_tests_cant": "about 90 mnemonics x operand kinds x sizes x ranges of constants x register numbers x addresses in three modes", "anchors": ["parser.c: ParseLine, process_register, memory_operand, idata_nofixup, check_size", "codegen.c: codegen, match_phase_3, check_operand_2, output_opc, output_data", "H/instruct.h"]}
{"id": "C65", "title": "A constant that does not fit the operand is refused", "statement": "If a line with an integer instruction is accepted, its constants are numbers of the operand size of the instruction written; `add al, 256`, `add ax, 10000h`, `int 100h` are errors.", "quantifier": "as C64; every constant", "why_tests_cant": "every constant, operand size and operand kind; a wrong bound shows only for a few values", "anchors": ["parser.c: idata_nofixup, check_size", "codegen.c: match_phase_3, check_operand_2"]}
{"id": "C66", "title": "INVOKE of a 64-bit Windows procedure passes its arguments", "statement": "When the call is made, the procedure finds each argument where the Windows calling convention says - RCX, RDX, R8, R9, XMM0-XMM3 for REAL4 and REAL8, the stack above four slots - with the value the argument had before INVOKE, cut or extended to the parameter; the address called, other registers and other memory are unchanged; an argument in a register that an earlier argument has overwritten is an error.", "quantifier": "every prototype (also VARARG), every argument list (variables, registers, constants, addresses, ADDR, XMM registers), every machine state", "why_tests_cant": "arguments are moved one after the other and each move can destroy a later argument; all orders, register overlaps and size combinations", "anchors": ["invoke.c: ms64_param, ms64_fcstart, PushInvokeParam, InvokeDirective"]}
{"id": "C67", "title": "INVOKE of a 64-bit Windows procedure keeps the stack right", "statement": "RSP at the call is lowered by whole 8-byte slots (nothing with automatic stack space), an even number of them (alignment by 16 is kept), at least four and at least one per argument; after the call RSP is restored. With automatic stack space the procedure reserves enough for every INVOKE in it.", "quantifier": "every prototype, argument list, machine state and sequence of INVOKEs", "why_tests_cant": "for every number of arguments and every sequence", "anchors": ["invoke.c: ms64_fcstart, ms64_fcend"]}
{"id": "C68", "title": ".SWITCH executes the statements of the matching .CASE", "statement": "A .SWITCH block executes the statements behind the .CASE whose constants contain the value of the operand - behind .DEFAULT if there is none, nothing if there is no .DEFAULT - up to the first .BREAK, whichever method (comparisons, jump table, byte or word table, binary search) the assembler has chosen; before them only the accumulator may be changed, the stack is unchanged at the end. Blocks with different constants are accepted.", "quantifier": "every block of .CASE, .DEFAULT, .BREAK, .BREAK .IF and statements, every operand kind and value, 32- and 64-bit code, every OPTION SWITCHSIZE, every machine state", "why_tests_cant": "the number and the distances of the constants select one of five methods, each with its own tables written row by row; a wrong entry shows for single values only", "anchors": ["hll.c: HllStartDir, HllExitDir, HllEndDir, bubblesort, bubblesort64", "option.c: SetSwitchSize"]}
{"id": "C69", "title": "Names have their values in every pass", "statement": "In each pass the value of a name at a line is that of its last definition (=, EQU, SIZESTR, INSTR, label) above the line, or - if there is none - its value at the end of the previous pass. The assembler stores the lines of the first pass from the first instruction on and only replays them, after restoring the variables; this gives the same operand values as reading the source again.", "quantifier": "every source of definitions and uses, every pass, every evaluator of expressions that may depend on pass, line and the values of names, every movement of addresses between passes, with and without the line store", "why_tests_cant": "the replay starts in the middle of the source with restored variables; a variable that is not saved, or saved with a wrong part, shows only in the second or third pass of sources that redefine it", "anchors": ["equate.c: CreateAssemblyTimeVariable, CreateVariable, CreateConstant, SetValue", "fastpass.c: StoreLine, SaveState, SaveVariableState, RestoreState", "label.c: CreateLabel", "assemble.c: OnePass"]}
{"id": "C70", "title": "Constants do not change, variables may", "statement": "If a source is accepted, all EQU definitions of a constant in a pass have the same value. Variables may be set again to any value; a source of variables, consistent constants and labels defined once is accepted in every pass.", "quantifier": "every source of definitions and uses, every pass, every evaluator of expressions", "why_tests_cant": "redefinition is decided by flags of the symbol set by other directives in other passes", "anchors": ["equate.c: CreateAssemblyTimeVariable, CreateVariable, CreateConstant, SetValue", "label.c: CreateLabel"]}
{"id": "C71", "title": "REAL10 constants have the value written", "statement": "A decimal literal whose magnitude lies within the range of normal REAL10 numbers is converted to a normal REAL10 number of its sign that differs from the literal by at most half a unit of the last place plus 1/65536 of it. No number a REAL10 could hold lies between the literal and the result; so a literal a REAL10 can hold exactly (integers of up to 64 bits, 0.5, 6.25e-2) is converted exactly. Zeros give zero.", "quantifier": "every literal: any number of digits in front of and behind the point, any exponent, within the range of normal numbers", "why_tests_cant": "the error accumulates over up to 13 products of 96-bit mantissas with tables of powers of ten; no test covers all digit strings", "anchors": ["tbyte.c: strtotb, TB_create, multiply, normalize, U96LD, add192, add_check_u96_overflow, tab_plus_exp, tab_minus_exp", "atofloat.c: atofloat"]}
{"id": "C72", "title": "Mach-O objects contain the program's segments as sections", "statement": "The file written with -macho64 is a 64-bit x86 Mach-O object: its load commands, walked by their sizes, fill exactly the space announced; the sections of its segment are the program's segments in their order, each with the names and attributes of its kind, addresses one behind the other from 0, and the assembled bytes as contents; the segment command covers them all.", "quantifier": "every module: any number of segments, sizes, contents, symbols and fixups (file below 2 GB)", "why_tests_cant": "offsets of all tables depend on the number and sizes of everything before them", "anchors": ["macho64.c: macho_build_structures, macho_build_section, macho_build_seg_cmd, GetRelocationCount, macho_write_module", "H/macho64spec.h"]}
{"id": "C73", "title": "Mach-O symbol tables and relocations are complete", "statement": "The symbol table of the file lists exactly the used local symbols, the publics and the externals with name, kind, section number and address, in the order announced by the dynamic symbol table command; each relocation names the location, the size of the field and the table entry of the symbol the source referred to, and marks branches.", "quantifier": "every module: any list of symbols in any hash order, any fixups", "why_tests_cant": "symbol indices are positions in a list built by three passes over the symbol table and used by name; tests see only a few symbols", "anchors": ["macho64.c: macho_build_string_tbl, macho_add_string, GetSymbolIndex, GetSectionIdx, macho_build_structures", "H/macho64spec.h: relocation_info, nlist_64"]}
{"id": "C74", "title": "A macro call hands each argument to its parameter", "statement": "The arguments of a macro call, separated by commas outside of parentheses (macro functions) and of <>, are handed to the parameters in their order, without the blanks around them, the <> of literals and the literal character operators; calls of macro functions in them are replaced by their values from left to right; a blank argument gives the default, VARARG takes all that remain, a missing REQ argument is an error, surplus arguments are a warning. The call of a macro function ends at its own ')' and leaves the rest of the line as it is.", "quantifier": "every macro, every list of arguments, nested calls of any depth, every state of the symbol table", "why_tests_cant": "arguments nest without limit and an inner call may change the meaning of everything behind it", "anchors": ["expans.c: RunMacro"]}
{"id": "C75", "title": "Macro lines run as written; EXITM and GOTO leave the caller's IF blocks alone", "statement": "The lines of a macro are processed one after the other, IF blocks by the values of their conditions at that time; GOTO continues behind the label of that name (upper or lower case), a GOTO without label is an error and ends the macro, EXITM ends the macro. Wherever EXITM and GOTO stand inside of IF blocks, after the macro the IF blocks open are those that were open before the call, with their ELSE parts in the same state. Labels stand outside of IF blocks; conditions can be evaluated.", "quantifier": "every macro: any lines, IF nesting up to the limit of 20, any number of jumps, every state of the assembler", "why_tests_cant": "the number of jumps is unbounded and every jump leaves IF blocks open at another depth", "anchors": ["expans.c: RunMacro, SkipMacro", "condasm.c: conditional_assembly_prepare, GetIfNestLevel, SetIfNestLevel"]}
{"id": "C76", "title": "CPU directives: what is selected is what is accepted", "statement": "After any sequence of CPU, FPU and extension directives the instructions and registers accepted are those of the selected processor: the CPU level and the privileged mode of the last CPU directive, the coprocessor of the last FPU directive (or the default of the CPU), the extensions of the last extension directive; @Cpu shows the same; outside of a segment and without .MODEL the default offset size follows the CPU, and a CPU too small for the open segment is an error.", "quantifier": "every sequence of directives from every setting, every requirement of an instruction", "why_tests_cant": "the number of directives is unbounded and each changes some of the bits that the others have set", "anchors": ["cpumodel.c: SetCPU, CpuDirective, SetDefaultOfssize", "codegen.c: check of the cpu field", "codegenv2.c: IsValidInCPUMode", "expreval.c: registers", "segment.c: SetOfssize"]}
{"id": "C77", "title": "The .MODEL directive sets what it says", "statement": "A .MODEL with one of the seven memory models, in any case of letters, and at most one language, stack distance and operating system, in any order, is accepted, FLAT only from the 386 on and without a stack distance; anything else is an error. The model, language, stack and operating system are those written, or left alone; @CodeSize, @DataSize, @Model, @Interface, @code, @data and @stack have the values of the model; FLAT sets the offset size of the CPU.", "quantifier": "every list of arguments in every order and spelling, every state before", "why_tests_cant": "arguments come in every order and in every combination with the state left by earlier directives", "anchors": ["cpumodel.c: ModelDirective, SetModel, FindToken", "simsegm.c: SetModelDefaultSegNames"]}
{"id": "C78", "title": ".STARTUP and .EXIT code", "statement": "The code that .STARTUP generates for DOS leaves DS at DGROUP, and with a near stack SS also, SS:SP being the same address as before when the stack lies in the 64 KB of DGROUP; an interrupt during it finds the old or the new stack, never a mixture. The code of .EXIT ends the program with the low byte of its operand, or AL when there is none.", "quantifier": "every load address, every register content, every CPU setting, every operand", "why_tests_cant": "the registers at the start and the load address range over all values, and an interrupt may come at each instruction", "anchors": ["end.c: StartupExitDirective, StartupDosNear0, StartupDosNear1, StartupDosFar, ExitOS2, ExitDos"]}
{"id": "C79", "title": "A % line is expanded", "statement": "In a line beginning with %, every text macro outside of strings is replaced by its value, in which the same is done again, and so is one in a string that has a & in front or behind; these &s disappear, everything else stays. Text macros inside of each other for more than 19 levels, in particular those that contain themselves, are an error, and the expansion ends.", "quantifier": "every line, every set of text macros, every depth", "why_tests_cant": "values may contain text macros, quotes and & in every combination, and may be recursive", "anchors": ["expans.c: ExpandText"]}
{"id": "C80", "title": "Text macros in ordinary lines are replaced by their values", "statement": "A text with text macros is replaced by its full expansion, in which none is left, or, with more than 19 inside of each other, is reported as too deep; the expansion always ends. As an argument of a string directive the value of a text macro is handed on unchanged, whatever characters it has.", "quantifier": "every text, every set of text macros, every value", "why_tests_cant": "the text is scanned again after each replacement, and values may contain every character, including the brackets put around them", "anchors": ["expans.c: ExpandTMacro, RebuildLine", "tokenize.c: get_string"]}
{"id": "C81", "title": "The header of a DOS program tells DOS the truth", "statement": "In an MZ file the size told in the header is the size of the file, the header is counted in paragraphs exactly and holds the relocation table; the memory demanded holds every segment, uninitialised ones included; CS:IP is the start label, SS:SP the end of the stack segment; the parameters of OPTION MZ are kept within the limits of the format.", "quantifier": "every list of segments, every layout, every number of relocations, all parameters of OPTION MZ", "why_tests_cant": "sizes modulo 512 and 16, alignments and orders of segments combine freely", "anchors": ["bin.c: bin_write_module, GetImageSize", "option.c: SetMZ"]}
{"id": "C82", "title": "Simplified segment directives open the right segment", "statement": "After .MODEL, the directives .CODE, .DATA, .DATA?, .CONST, .FARDATA and .FARDATA? close the current segment and open theirs, .STACK makes the stack segment as large as told and leaves the current segment open; in no order, and with no other segments opened between them, do they cause an error or change the attributes of a segment; new segments get the class, combine type, alignment and size of their kind; near data, and a near stack, are in DGROUP; CS is assumed to be what the model says, or nothing.", "quantifier": "every order and number of directives, with and without names, all models, all segments opened in between", "why_tests_cant": "the history of directives is unbounded and decides which attributes are written and which segments are added to the group", "anchors": ["simsegm.c: SimplifiedSegDir, SetSimSeg, AddToDgroup, close_currseg, ModelSimSegmInit"]}
{"id": "C83", "title": "ORG leaves no gap in a flat binary", "statement": "With OPTION FLAT the file consists of exactly the bytes the program emits, in their order; a forward ORG changes the addresses of what follows, and no byte of the gap is written.", "quantifier": "every sequence of bytes and forward ORGs", "why_tests_cant": "the number of ORGs and their distances are unbounded; each one adds a range that later bytes must not fall into", "anchors": ["orgfixup.c: AddOrgFixup, InOrgRange, ResetOrgFixup", "posndir.c: OrgDirective", "bin.c: bin_write_module", "assemble.c: SetCurrOffset, OutputByte"]}
{"id": "C84", "title": "Floating point emulation fixups give the emulator's interrupts", "statement": "With OPTION EMULATOR in 16-bit segments, linking the OMF records with the emulator library turns every emulated x87 instruction into INT 34h-3Bh, INT 3Ch (segment override) or INT 3Dh (FWAIT) as the emulator expects, and leaves every other byte of the segment as it is; the object file declares each symbol that is needed, once, and no other.", "quantifier": "every segment: every sequence of floating point instructions and other bytes, of any length", "why_tests_cant": "the patched bytes of an instruction must never be divided between two records, wherever in the segment it stands; a test has one position", "anchors": ["fpfixup.c: AddFloatingPointEmulationFixup", "codegen.c: output_opc", "assemble.c: OutputByte", "omf.c: omf_FlushCurrSeg"]}

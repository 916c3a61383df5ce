{"id": "C01", "title": "An address map of RAM segments is one flat memory", "statement": "Build an AddressMap by registering ReadWrite Memory segments over pairwise disjoint ranges, then issue any sequence of reads and writes. A read of a mapped address returns the last value written to exactly that address (0 if never written), and a write never changes what any other address reads.", "quantifier": "every set of disjoint segments, every finite history of writes, every address, every hash iteration order", "why_tests_cant": "The histories and layouts are unbounded; a test fixes one layout and a handful of addresses and cannot exclude aliasing between two addresses it did not try.", "anchors": ["src/address_map/mod.rs: AddressMap::register, AddressMap::read, AddressMap::write", "src/address_map/memory.rs: Memory<ReadWrite>::read, Memory<ReadWrite>::write"]}
{"id": "C02", "title": "Unmapped addresses read as zero and reject writes without side effects", "statement": "If no registered range contains an address, AddressMap::read returns the default value, AddressMap::write returns Err, and no device or other address changes.", "quantifier": "every address map over every device type, every address outside all registered ranges, every value", "why_tests_cant": "The claim is about the absence of effects on every device for every layout.", "anchors": ["src/address_map/mod.rs: AddressMap::read, AddressMap::write"]}
{"id": "C03", "title": "ROM contents can never change through the bus", "statement": "Writing to an address backed by Memory<ReadOnly> returns Err(\"memory is read-only\"); after any history of writes through the address map, every address served by a ReadOnly segment reads the byte that was loaded.", "quantifier": "every layout, every finite history of writes (accepted or refused), every ROM address", "why_tests_cant": "Immutability over all histories is not observable from a finite number of writes.", "anchors": ["src/address_map/memory.rs: Memory<ReadOnly>::write", "src/address_map/mod.rs: AddressMap::write"]}
{"id": "C04", "title": "Registration never lets two devices claim the same address", "statement": "AddressMap::register returns Err whenever the new range overlaps a registered one, so every address is served by at most one device.", "quantifier": "every sequence of registrations with every ranges", "why_tests_cant": "Overlap has several shapes (left, right, inside, enclosing); the tests try one and the property must hold after any number of registrations.", "anchors": ["src/address_map/mod.rs: AddressMap::register"]}
{"id": "C05", "title": "Registration fails exactly on an endpoint conflict and otherwise only adds the new range", "statement": "register returns Err iff the start or end of the new range lies in a registered range. When it succeeds on a map whose ranges the new one does not overlap, every address outside the new range reads and writes exactly as before and every address in it is served by the new device.", "quantifier": "every map, range, device and address", "why_tests_cant": "Needs all pairs of ranges and all addresses.", "anchors": ["src/address_map/mod.rs: AddressMap::register, AddressMap::read, AddressMap::write"]}
{"id": "C06", "title": "Bus behaviour does not depend on HashMap iteration order", "statement": "Two address maps holding the same disjoint (range, device) entries in different iteration orders give the same result for every read and write, forever; so cloning or rehashing a map is unobservable.", "quantifier": "every permutation of the entries, every history of operations", "why_tests_cant": "Iteration order is randomised per process; a test run samples one order.", "anchors": ["src/address_map/mod.rs: AddressMap.inner, AddressMap::read, AddressMap::write"]}
{"id": "C07", "title": "Memory segments: new, load and dump agree with read and write", "statement": "Memory::new(a,b) dumps as b-a+1 zero cells; load(data).dump() is data; after load(data) the cell at a+i reads data[i] for every i < data.len(), and a write of v at a+i makes the dump data with position i replaced by v. Access inside the declared range never panics as long as the loaded image covers it.", "quantifier": "every start/stop pair, every image of every length, every offset", "why_tests_cant": "Off-by-one errors at any of 2^16 x 2^16 ranges cannot be sampled.", "anchors": ["src/address_map/memory.rs: Memory::new, Memory::load, Memory::dump, Memory::read, Memory::write"]}
{"id": "C08", "title": "Pages partition the address space into aligned 256-byte blocks", "statement": "Page::from(addr).contains(other) is true exactly when the two addresses share their high byte, and Page::from of any u8 is the zero page; constructing a page never overflows.", "quantifier": "all 2^32 address pairs", "why_tests_cant": "Exhaustive pairs are out of reach for unit tests and the interesting cases sit at every page boundary.", "anchors": ["src/address_map/page.rs: Page::from, Page::contains"]}
{"id": "C09", "title": "StepState waits out its cycles before the CPU runs and never alters the CPU", "statement": "StepState::new(n, cpu) becomes Ready after exactly n-1 decrements (immediately for n <= 1); unwrap always returns the wrapped CPU; running a waiting state for c >= remaining cycles is exactly running the CPU for c - remaining cycles.", "quantifier": "every n, every c, every CPU type and implementation of Cpu::run", "why_tests_cant": "Must hold for every count and for a generic CPU.", "anchors": ["src/cpu/mod.rs: StepState::new, StepState::decrement, StepState::unwrap, StepState::run"]}
{"id": "C10", "title": "Splitting a wait across several run calls does not shorten it", "statement": "For a waiting StepState, s.run(a) followed by run(b) reaches the same state as s.run(a + b).", "quantifier": "every remaining count, every a and b, every CPU whose own run splits", "why_tests_cant": "Needs all splits of all waits.", "anchors": ["src/cpu/mod.rs: StepState::run"]}
{"id": "C11", "title": "The processor-status byte and the flags are the same information", "statement": "ProcessorStatus::with_value(b).read() == b for every byte and with_value(ps.read()) == ps for every flag combination, with bits N V - B D I Z C from 7 down to 0.", "quantifier": "all 256 bytes and all 256 flag combinations", "why_tests_cant": "Tests check a few bytes; a swapped pair of bits survives any symmetric sample.", "anchors": ["src/cpu/mos6502/register.rs: ProcessorStatus::with_value, ProcessorStatus::read"]}
{"id": "C12", "title": "Mos6502::run executes whole instructions only", "statement": "cpu.run(n) is the state after the longest prefix of the program's instructions whose cycle counts sum to at most n: an instruction has either all of its effects (registers, flags, memory, pc) or none.", "quantifier": "every program, every memory layout, every device, every n", "why_tests_cant": "Atomicity must hold at every possible cut point of every program.", "anchors": ["src/cpu/mos6502/mod.rs: Mos6502::run, Mos6502IntoIterator::next", "src/cpu/mos6502/operations/mod.rs: Operations into Vec<Vec<Microcode>>"]}
{"id": "C13", "title": "Running n cycles can be split", "statement": "cpu.run(a).run(b) equals cpu.run(a + b).", "quantifier": "every CPU state, every a and b", "why_tests_cant": "There are unboundedly many programs and cut points.", "anchors": ["src/cpu/mos6502/mod.rs: Mos6502::run", "src/cpu/mod.rs: StepState::run"]}
{"id": "C14", "title": "Replaying the emitted microcode reproduces the run", "statement": "Collecting the microcode of cpu.clone().into_iter() for n cycles and folding it onto cpu gives exactly cpu.run(n), and the iterator's own internal state after k instructions is the CPU after k instructions.", "quantifier": "every program, every n and k", "why_tests_cant": "The equality must hold along every execution.", "anchors": ["src/cpu/mos6502/mod.rs: Mos6502IntoIterator::next, From<Mos6502IntoIterator> for Mos6502, Mos6502::run", "examples/microcode_step_capture.rs: main"]}
{"id": "C15", "title": "Every instruction that is not a jump, branch, call, return or break advances pc by its encoded length", "statement": "After such an instruction pc is the old pc plus the instruction's byte length, modulo 65536.", "quantifier": "all 136 non-control-flow opcode forms, every operand, every CPU state, wherever the step does not panic (C36)", "why_tests_cant": "151 forms x operands x states.", "anchors": ["src/cpu/mos6502/operations/mod.rs: Generate for Instruction<_, _>, Operations", "src/cpu/mos6502/mod.rs: Mos6502IntoIterator::next"]}
{"id": "C16", "title": "Instructions touch only the registers, flags and memory they document", "statement": "Each instruction leaves unchanged every register and status flag outside its documented set, and writes memory only at its effective address or, for pushes, in page one at the stack pointer.", "quantifier": "all 151 opcode forms, every operand, every CPU state, wherever the step does not panic (C36)", "why_tests_cant": "A frame condition over the complete state.", "anchors": ["src/cpu/mos6502/operations/mod.rs: Generate for Instruction<_, _>", "src/cpu/mos6502/mod.rs: ExecuteMut<Microcode> for Mos6502"]}
{"id": "C17", "title": "Loads put the addressed byte in the register and set N and Z from it", "statement": "LDA, LDX and LDY in every addressing mode set the register to the byte at the effective address, set Z iff it is 0 and N iff bit 7 is set, and change nothing else but pc.", "quantifier": "all 18 forms, every operand and state, wherever fetching and addressing do not themselves panic (those states are listed in C36)", "why_tests_cant": "Every operand, index and memory content.", "anchors": ["src/cpu/mos6502/operations/mod.rs: Generate for Instruction<Lda|Ldx|Ldy, _>"]}
{"id": "C18", "title": "Stores write exactly the register to exactly the effective address", "statement": "STA, STX and STY write the register's value to the effective address, write nothing else, and change no register or flag but pc.", "quantifier": "all 13 forms, every operand and state, wherever fetching and addressing do not themselves panic (those states are listed in C36)", "why_tests_cant": "Every operand, index and memory content.", "anchors": ["src/cpu/mos6502/operations/mod.rs: Generate for Instruction<Sta|Stx|Sty, _>"]}
{"id": "C19", "title": "Register transfers copy the source and set N and Z (TXS sets none)", "statement": "TAX, TAY, TXA, TYA and TSX copy source to destination and set N and Z from the value; TXS copies X to the stack pointer and leaves all flags unchanged.", "quantifier": "all six forms, every state, wherever the step does not panic (C36)", "why_tests_cant": "Every register content and flag combination.", "anchors": ["src/cpu/mos6502/operations/mod.rs: Generate for Instruction<Tax|Tay|Tsx|Txa|Txs|Tya, Implied>"]}
{"id": "C20", "title": "AND, ORA, EOR and BIT are the bitwise operations with the documented flags", "statement": "AND, ORA and EOR put the bitwise result in A and set N and Z from it; BIT leaves A unchanged and sets Z from A & M, N from bit 7 of M and V from bit 6 of M.", "quantifier": "all 26 forms, every operand and state, wherever fetching and addressing do not themselves panic (those states are listed in C36)", "why_tests_cant": "65536 operand pairs per form, in every state.", "anchors": ["src/cpu/mos6502/operations/mod.rs: Generate for Instruction<And|Ora|Eor|Bit, _>"]}
{"id": "C21", "title": "Shifts and rotates move every bit one place through carry", "statement": "ASL, LSR, ROL and ROR shift their operand by one place, put the bit shifted out in C, shift in 0 or the old C, and set N and Z from the result, on A or in memory; ROR undoes ROL and vice versa, carry included.", "quantifier": "all 20 forms, every operand, carry and state, wherever fetching and addressing do not themselves panic (those states are listed in C36)", "why_tests_cant": "Every operand and carry in every mode.", "anchors": ["src/cpu/mos6502/operations/mod.rs: Operand::rol, Operand::ror, Operand::shl, Operand::shr, Generate for Instruction<Asl|Lsr|Rol|Ror, _>"]}
{"id": "C22", "title": "Increments and decrements wrap modulo 256 and set N and Z from the result", "statement": "INC, DEC, INX, INY, DEX and DEY add or subtract one modulo 256 in memory or register and set N and Z from the new value; nothing else changes but pc.", "quantifier": "all 12 forms, every operand and state, wherever fetching and addressing do not themselves panic (those states are listed in C36)", "why_tests_cant": "Every operand and every unrelated register content.", "anchors": ["src/cpu/mos6502/operations/mod.rs: Generate for Instruction<Inc|Dec|Inx|Iny|Dex|Dey, _>"]}
{"id": "C23", "title": "ADC adds accumulator, operand and carry-in", "statement": "In binary mode ADC sets A to (A + M + C) mod 256, C to the carry out, V to signed overflow, and N, Z from the result.", "quantifier": "all 8 forms, all A, M, C, wherever fetching and addressing do not themselves panic (those states are listed in C36)", "why_tests_cant": "131072 operand combinations per form in every mode.", "anchors": ["src/cpu/mos6502/operations/mod.rs: AddTwosComplement::twos_complement_add, Generate for Instruction<Adc, _>"]}
{"id": "C24", "title": "SBC subtracts operand and borrow from the accumulator", "statement": "In binary mode SBC sets A to (A - M - (1 - C)) mod 256, C to no-borrow, V to signed overflow, and N, Z from the result.", "quantifier": "all 8 forms, all A, M, C, wherever fetching and addressing do not themselves panic (those states are listed in C36)", "why_tests_cant": "131072 operand combinations per form.", "anchors": ["src/cpu/mos6502/operations/mod.rs: SubTwosComplement::twos_complement_sub, Generate for Instruction<Sbc, _>"]}
{"id": "C25", "title": "Compares set C, Z and N from the unsigned comparison and the difference", "statement": "CMP, CPX and CPY set C iff the register is at least the operand as unsigned numbers, Z iff they are equal, N from bit 7 of the difference, and change no register but pc.", "quantifier": "all 14 forms, all register and operand values, wherever fetching and addressing do not themselves panic (those states are listed in C36)", "why_tests_cant": "65536 pairs per form.", "anchors": ["src/cpu/mos6502/operations/mod.rs: Operand (derived PartialOrd), Generate for Instruction<Cmp|Cpx|Cpy, _>"]}
{"id": "C26", "title": "Branches test their flag and go to the documented target", "statement": "Each conditional branch is taken iff its flag has the documented value; when not taken execution continues after the two-byte instruction, when taken it continues at the address of the following instruction plus the signed offset, and nothing else changes.", "quantifier": "all 8 branches, every offset, every pc and flag state, wherever the step does not panic (C36)", "why_tests_cant": "256 offsets x 65536 pcs x flags.", "anchors": ["src/cpu/mos6502/operations/mod.rs: branch_on_case, Generate for Instruction<Bcc|Bcs|Beq|Bmi|Bne|Bpl|Bvc|Bvs, Relative>"]}
{"id": "C27", "title": "RTS returns to the instruction after the matching JSR", "statement": "JSR to a routine that leaves the stack pointer and its two stack bytes as it found them, followed by RTS, continues at the address after the three-byte JSR with the stack pointer restored, for any nesting depth that fits the stack page.", "quantifier": "every pc, every stack pointer including wrap-around, every nesting of calls", "why_tests_cant": "Unbounded nesting and all stack-pointer values.", "anchors": ["src/cpu/mos6502/operations/mod.rs: Generate for Instruction<Jsr, Absolute>, Generate for Instruction<Rts, Implied>"]}
{"id": "C28", "title": "The stack is last-in first-out: PHA/PLA and PHP/PLP restore what was pushed", "statement": "A pull returns the value of the matching push and restores the stack pointer, for every interleaving of pushes and pulls with at most 256 bytes outstanding, including when the pointer wraps from 0x00 to 0xff.", "quantifier": "every stack pointer, every sequence of pushed values, every balanced push/pull sequence", "why_tests_cant": "Unbounded sequences.", "anchors": ["src/cpu/mos6502/operations/mod.rs: Generate for Instruction<Pha|Php|Pla|Plp, Implied>"]}
{"id": "C29", "title": "RTI resumes what BRK interrupted", "statement": "BRK followed by RTI restores the status register and stack pointer and resumes at the pushed return address (the BRK address plus 2).", "quantifier": "every pc, stack pointer, status and memory", "why_tests_cant": "All states.", "anchors": ["src/cpu/mos6502/operations/mod.rs: Generate for Instruction<Brk, Implied>, Generate for Instruction<Rti, Implied>"]}
{"id": "C30", "title": "Effective addresses follow the documented addressing modes", "statement": "Zero-page indexing wraps within page zero; absolute indexing wraps at 65536; (zp,X) reads its little-endian pointer from zp+X and zp+X+1, both wrapped within page zero; (zp),Y adds Y to the little-endian pointer at zp, zp+1 (wrapped within page zero).", "quantifier": "every operand, index and memory content", "why_tests_cant": "All pointer positions including wrap-around.", "anchors": ["src/cpu/mos6502/operations/mod.rs: add_index_to_address, add_index_to_zeropage_address, dereference_indexed_indirect_address, dereference_indirect_indexed_address"]}
{"id": "C31", "title": "Cycle counts match the documented timing including page-crossing penalties", "statement": "Every instruction consumes its documented base number of cycles, plus one for an indexed read whose effective address lies in another page than the unindexed address, plus one for a taken branch and one more if its target is in another page.", "quantifier": "all 151 forms, every operand and state, wherever the step does not panic (C36)", "why_tests_cant": "Penalties depend on all address/index pairs.", "anchors": ["src/cpu/mos6502/operations/mod.rs: Operations, branch_on_case, Page::from uses in Generate impls"]}
{"id": "C32", "title": "JMP goes to its operand, or to the little-endian word it points at", "statement": "JMP absolute sets pc to the operand; JMP indirect sets pc to the little-endian word at the operand address and the next address; nothing else changes.", "quantifier": "every operand and memory content; the operand 0xffff of the indirect form panics in a build with overflow checks (C36) and is meant only without them", "why_tests_cant": "65536 operands x all memory contents.", "anchors": ["src/cpu/mos6502/operations/mod.rs: Generate for Instruction<Jmp, Absolute|Indirect>"]}
{"id": "C33", "title": "Flag instructions set or clear exactly their flag", "statement": "CLC, CLD, CLI, CLV, SEC, SED and SEI set their flag to the documented value and change nothing else but pc.", "quantifier": "all seven forms, every state, wherever the step does not panic (C36)", "why_tests_cant": "All flag combinations and register contents.", "anchors": ["src/cpu/mos6502/operations/mod.rs: Generate for Instruction<Clc|Cld|Cli|Clv|Sec|Sed|Sei, Implied>"]}
{"id": "C34", "title": "Reset loads pc from the reset vector and keeps memory", "statement": "cpu.reset() yields a waiting state (5 cycles left) whose CPU has pc = little-endian word at 0xfffc, sp = 0xff, A = X = Y = 0, status with only bit 5 set, and an address map that reads exactly as before.", "quantifier": "every CPU state and every memory layout", "why_tests_cant": "All prior states.", "anchors": ["src/cpu/mos6502/mod.rs: Mos6502::reset"]}
{"id": "C35", "title": "reset_as_mops is the same reset expressed as microcode", "statement": "Executing the operations returned by cpu.reset_as_mops() on cpu gives the CPU that cpu.reset() wraps, taking six cycles.", "quantifier": "every CPU state and every memory layout", "why_tests_cant": "All prior states.", "anchors": ["src/cpu/mos6502/mod.rs: Mos6502::reset_as_mops, Mos6502::reset"]}
{"id": "C36", "title": "A 6502 step panics only for a listed reason", "statement": "On a bus whose reads do not panic, executing one instruction panics only if the opcode is undocumented, a store or push hits an address the bus refuses, or 16/8-bit address arithmetic overflows (pc >= 0xfffe at fetch, (zp,X) with X = 0xff, (zp),Y or JMP indirect past 0xffff) in a build with overflow checks; in particular a full 64K RAM machine in a build without overflow checks never panics on documented opcodes. Conversely each of these makes it panic; a write counts as refused here if the bus never takes a byte for that address.", "quantifier": "every CPU state and memory content", "why_tests_cant": "Absence of panics over all states.", "anchors": ["src/cpu/mos6502/mod.rs: Mos6502IntoIterator::next, ExecuteMut<WriteMemory>", "src/cpu/mos6502/operations/mod.rs: dereference_* helpers"]}
{"id": "C37", "title": "A program's behaviour depends only on the registers and the bytes it can read", "statement": "Two CPUs with equal registers whose buses answer every read alike execute the same instruction with the same cycle count and end with equal registers and the same sequence of bus writes, whatever devices implement the buses.", "quantifier": "every pair of such CPUs, every bus implementation, every number of steps for RAM/ROM buses", "why_tests_cant": "A relational property of all pairs of states.", "anchors": ["src/cpu/mos6502/mod.rs: Mos6502::run, Mos6502IntoIterator::next", "src/cpu/mos6502/operations/mod.rs: Generate for InstructionVariant"]}
{"id": "C38", "title": "The documented demo program stores 1, 2, 3 at 0x0200..0x0202 forever without panicking", "statement": "Running the LDA/STA loop of examples/basic.rs from ROM after reset never panics for any number of cycles, and from cycle 18 on memory 0x0200..0x0202 always reads 1, 2, 3 while every other address reads as initially.", "quantifier": "every number of cycles", "why_tests_cant": "An invariant of an infinite execution.", "anchors": ["examples/basic.rs: main", "src/cpu/mos6502/mod.rs: Mos6502::run"]}
{"id": "C39", "title": "12-bit addresses stay in range and wrap modulo 4096", "statement": "Every u12 constructor and operator yields a value at most 0xfff; wrapping_add and wrapping_sub are addition and subtraction modulo 4096 and inverse to each other; construction from nibbles or bytes and conversion back round-trips; checked construction and + panic exactly when the exact result does not fit.", "quantifier": "all pairs of 12-bit values, all u16 inputs", "why_tests_cant": "2^24 pairs per operator.", "anchors": ["src/cpu/chip8/u12.rs: u12::new, wrapping_add, wrapping_sub, Add, Sub, Shl, Shr, BitAnd, BitOr, from_be_nibbles"]}
{"id": "C40", "title": "CHIP-8 opcode decoding is unambiguous and inverse to the documented encoding", "statement": "Every documented instruction's two-byte encoding decodes to that instruction with its operands in the documented places, distinct instructions have distinct encodings, and every word outside the documented patterns is rejected.", "quantifier": "all 65536 instruction words", "why_tests_cant": "The full table with operand extraction.", "anchors": ["src/cpu/chip8/operations/mod.rs: decode_bytes_to_opcode, ToNibble, u8_from_nibbles"]}
{"id": "C41", "title": "CHIP-8 instructions advance pc by two unless they jump, call, return or skip", "statement": "After every other instruction pc is the old pc plus 2 modulo 65536; a skip adds 4 when its condition holds and 2 otherwise.", "quantifier": "every instruction and every state from which the step does not panic", "why_tests_cant": "All states.", "anchors": ["src/cpu/chip8/mod.rs: Chip8IntoIterator::next", "src/cpu/chip8/operations/mod.rs: Generate impls"]}
{"id": "C42", "title": "CHIP-8 RET returns to the instruction after the matching CALL", "statement": "After CALL nnn execution continues at nnn, and a RET with the stack as CALL left it continues at the instruction after the CALL.", "quantifier": "every state and target", "why_tests_cant": "All states and nestings.", "anchors": ["src/cpu/chip8/operations/mod.rs: Generate for Call, Ret", "src/cpu/chip8/mod.rs: ExecuteMut<PushStack>, ExecuteMut<PopStack>"]}
{"id": "C43", "title": "CHIP-8 calls nest to 16 levels, last-in first-out", "statement": "Up to 16 nested calls can be made and their return addresses come back in reverse order; the stack pointer counts the depth.", "quantifier": "every sequence of at most 16 pushes", "why_tests_cant": "All sequences.", "anchors": ["src/cpu/chip8/mod.rs: ExecuteMut<PushStack>, ExecuteMut<PopStack>", "src/cpu/chip8/memory.rs: Ring"]}
{"id": "C44", "title": "CHIP-8 arithmetic with flags writes the result to Vx and the flag to VF", "statement": "8xy4, 8xy5, 8xy7, 8xy6 and 8xyE put the sum, difference, reverse difference or shifted value modulo 256 in Vx and carry, no-borrow or shifted-out bit in VF, without panicking.", "quantifier": "all register pairs and values", "why_tests_cant": "65536 value pairs x 256 register pairs.", "anchors": ["src/cpu/chip8/operations/mod.rs: Generate for Add, Sub, Subn, Shl, Shr", "src/cpu/chip8/mod.rs: Chip8.gp_registers"]}
{"id": "C45", "title": "CHIP-8 register moves, immediate adds and bitwise operations compute the documented value", "statement": "6xkk, 7xkk, 8xy0, 8xy1, 8xy2, 8xy3, Annn, Fx1E, Fx07, Fx15 and Fx18 set exactly their destination to the documented value (additions modulo 256 or 65536) and change nothing else but pc.", "quantifier": "all registers V0..VE, all values", "why_tests_cant": "All register/value combinations and a full frame condition.", "anchors": ["src/cpu/chip8/operations/mod.rs: Generate for Ld, Add, Or, And, Xor", "src/cpu/chip8/mod.rs: ExecuteMut impls"]}
{"id": "C46", "title": "CHIP-8 skips compare exactly what they document", "statement": "3xkk, 4xkk, 5xy0, 9xy0, Ex9E and ExA1 skip the next instruction iff Vx = kk, Vx != kk, Vx = Vy, Vx != Vy, the key numbered Vx is pressed, or it is not, respectively.", "quantifier": "all registers V0..VE and values, all key states", "why_tests_cant": "All combinations.", "anchors": ["src/cpu/chip8/operations/mod.rs: Generate for Se, Sne, Skp, Sknp"]}
{"id": "C47", "title": "CHIP-8 jumps go to their target", "statement": "1nnn continues at nnn and Bnnn at nnn + V0 within the 12-bit space; nothing else changes.", "quantifier": "all targets and V0 values", "why_tests_cant": "4096 x 256 combinations in every state.", "anchors": ["src/cpu/chip8/operations/mod.rs: Generate for Jp"]}
{"id": "C48", "title": "Storing registers to memory and loading them back is the identity", "statement": "Fx55 with I = i writes V0..Vx to i..i+x and nothing else; a following Fx65 with the same I restores them, for any contents in between of the registers.", "quantifier": "every x, every i with the block inside memory, all register contents (registers V0..VE: the emulator has no VF, C44)", "why_tests_cant": "All blocks.", "anchors": ["src/cpu/chip8/operations/mod.rs: Generate for StoreRegistersToMemory, ReadRegistersFromMemory"]}
{"id": "C49", "title": "Fx33 stores the decimal digits of Vx", "statement": "After Fx33 the bytes at I, I+1, I+2 are the hundreds, tens and units digits of Vx, each below 10, and reconstruct Vx.", "quantifier": "all values, all I with the block inside memory (registers V0..VE: the emulator has no VF, C44)", "why_tests_cant": "All values and positions with the frame condition.", "anchors": ["src/cpu/chip8/operations/mod.rs: Generate for LdBcd"]}
{"id": "C50", "title": "Fx29 points I at the five-byte glyph of digit Vx", "statement": "Fx29 sets I to 5 times Vx for every digit 0..F; a value whose glyph address would not fit a byte is not reported as some other glyph.", "quantifier": "all values of Vx (registers V0..VE: the emulator has no VF, C44)", "why_tests_cant": "All values.", "anchors": ["src/cpu/chip8/operations/mod.rs: Generate for LdSpriteLocation"]}
{"id": "C51", "title": "Display pixels: in-bounds writes change one pixel, out-of-bounds writes change nothing", "statement": "write_pixel(x, y, v) returns Some(old value) and changes exactly pixel (x, y) when x < 64 and y < 32; otherwise it returns None and changes nothing. write_sprite draws each glyph bit at its offset, clips at the edges, touches nothing outside the 8x5 box, and returns None with no change when its origin is off-screen. The array of unwrap, with_inner and with_inner_mut has pixel (x, y) in column x of row y.", "quantifier": "all coordinates (unbounded), all displays, all glyphs", "why_tests_cant": "Coordinates and displays are unbounded.", "anchors": ["src/cpu/chip8/display.rs: Display::pixel, write_pixel, write_pixel_mut, write_sprite, write_sprite_mut"]}
{"id": "C52", "title": "write_sprite reports a collision iff it hit a lit pixel", "statement": "write_sprite returns Some(true) exactly when some pixel it covers was lit before.", "quantifier": "all displays, positions and glyphs", "why_tests_cant": "2^2048 displays.", "anchors": ["src/cpu/chip8/display.rs: Display::write_sprite_mut"]}
{"id": "C53", "title": "CLS clears the whole display", "statement": "After 00E0 every pixel is off and nothing else changes but pc.", "quantifier": "every display content and state", "why_tests_cant": "2^2048 displays.", "anchors": ["src/cpu/chip8/operations/mod.rs: Generate for Cls", "src/cpu/chip8/mod.rs: ExecuteMut<SetDisplayRange>"]}
{"id": "C54", "title": "DRW XORs the sprite at I onto the display and sets VF on collision", "statement": "Dxyn XORs n rows read from memory at I onto the display at (Vx, Vy) and sets VF to 1 iff some lit pixel was turned off, without panicking.", "quantifier": "all displays, positions, sprites", "why_tests_cant": "All displays.", "anchors": ["src/cpu/chip8/operations/mod.rs: Generate for Drw"]}
{"id": "C55", "title": "Fx0A waits for a key press", "statement": "With no key pressed Fx0A leaves pc on itself, so it executes again; once a key is pressed it stores that key in Vx and continues.", "quantifier": "every state (registers V0..VE: the emulator has no VF, C44)", "why_tests_cant": "A temporal claim over any number of waiting steps.", "anchors": ["src/cpu/chip8/operations/mod.rs: Generate for LdK", "src/cpu/chip8/mod.rs: ExecuteMut<Dec16bitRegister>"]}
{"id": "C56", "title": "Timers count down one per elapsed second to zero and never go up", "statement": "A timer written with v at time t reads v minus the whole seconds elapsed, never below 0, is non-increasing until the next write, and reading it never panics.", "quantifier": "every value and every pair of read times", "why_tests_cant": "Time is unbounded.", "anchors": ["src/cpu/chip8/register.rs: ClockDecrementing::read, ClockDecrementing::write"]}
{"id": "C57", "title": "Cxkk stores a random byte masked with kk", "statement": "Cxkk sets Vx to r & kk for the next byte r of the generator: bits outside kk are always 0 and every r is used unmodified elsewhere.", "quantifier": "every generator, mask and register (registers V0..VE: the emulator has no VF, C44)", "why_tests_cant": "Every generator behaviour.", "anchors": ["src/cpu/chip8/operations/mod.rs: Generate for Rnd", "src/cpu/chip8/mod.rs: GenerateRandom::random"]}
{"id": "C58", "title": "The buffered generator delivers the wrapped generator's bytes in order, without loss or duplication", "statement": "Whatever the scheduling of the producer thread, the k-th call of BufferedRandomNumberGenerator::random returns the k-th byte of the wrapped generator, the buffer never holds more than its bound, and for a bound of at least one the consumer is never blocked forever. The producer works ahead up to the bound, which is 1024 for the generator made by new.", "quantifier": "every bound, every interleaving of producer and consumer, every generator", "why_tests_cant": "All schedules.", "anchors": ["src/cpu/chip8/mod.rs: BufferedRandomNumberGenerator::with_capacity, GenerateRandom for BufferedRandomNumberGenerator"]}
{"id": "C59", "title": "Chip8::run(n) executes exactly n instructions and can be split", "statement": "Chip8::run(n) is n single instruction steps, the iterator's internal state agrees with folding the emitted microcode, and run(a).run(b) equals run(a + b) for a generator whose clones continue the same stream.", "quantifier": "every program, state, a, b and n", "why_tests_cant": "All programs and cut points.", "anchors": ["src/cpu/chip8/mod.rs: Chip8::run, Chip8IntoIterator::next"]}
{"id": "C60", "title": "The CHIP-8 stack ring never panics and wraps its index", "statement": "Ring(capacity n > 0) accepts every index: read and write address the cell index mod n, a read returns the last value written to a congruent index, and no other cell changes.", "quantifier": "every capacity, index and history", "why_tests_cant": "Unbounded indices and histories.", "anchors": ["src/cpu/chip8/memory.rs: Ring::read, Ring::write"]}
{"id": "C61", "title": "CHIP-8 instructions touch only what they document", "statement": "Each instruction leaves every register, timer, memory byte, stack cell and pixel outside its documented effect unchanged.", "quantifier": "every instruction and state", "why_tests_cant": "A frame condition over the complete state.", "anchors": ["src/cpu/chip8/operations/mod.rs: Generate impls", "src/cpu/chip8/mod.rs: ExecuteMut impls"]}
{"id": "C62", "title": "A CHIP-8 program that uses V0..VE only, stays inside memory and avoids VF-writing instructions never panics", "statement": "One step panics only for: an undecodable word, pc = 0xffff, access to VF or an instruction that writes VF, I-relative address overflow or a write outside mapped memory, Fx29 with Vx > 51.", "quantifier": "every state", "why_tests_cant": "Absence of panics over all states.", "anchors": ["src/cpu/chip8/mod.rs: Chip8IntoIterator::next", "src/cpu/chip8/operations/mod.rs: Generate impls"]}
{"id": "C63", "title": "CPU builder methods change only what they name", "statement": "with_gp_register, with_sp_register, with_pc_register, with_ps_register (6502) and with_gp_register, with_timer_register, with_i_register, with_pc_register, with_sp_register, with_rng, with_interrupt, with_display (CHIP-8) replace the named component and keep all others; the last call for a component wins and calls for different components commute.", "quantifier": "every state and every argument", "why_tests_cant": "All states and orders.", "anchors": ["src/cpu/mos6502/mod.rs: Mos6502::with_*", "src/cpu/chip8/mod.rs: Chip8::with_*"]}
{"id": "C64", "title": "The decoder is the documented 6502 opcode matrix", "statement": "The three bytes at the program counter are decoded exactly as the 6502's aaabbbcc opcode matrix documents: 151 opcodes select their documented mnemonic and addressing mode with a little-endian operand, and each of the other 105 opcodes makes the step panic instead of executing anything.", "quantifier": "every opcode, every pair of operand bytes, every state", "why_tests_cant": "2^24 byte triples in every state.", "anchors": ["src/cpu/mos6502/mod.rs: Mos6502IntoIterator::next, IntoIterator for Mos6502", "isa-mos6502: parse_instruction (as used)"]}
{"id": "C65", "title": "One instruction of the emulator is one instruction of a reference 6502", "statement": "From equal registers and memory, executing one instruction leads the emulator to the registers and memory of a textbook NMOS 6502 (bits 4 and 5 of the status, which the chip does not have, aside), and the operation reports the documented number of cycles.", "quantifier": "every documented instruction with every operand, every register and memory state, every bus that behaves as memory, checked and unchecked builds", "why_tests_cant": "The claim ranges over 2^56 register states and all memories for 151 opcodes at once.", "anchors": ["src/cpu/mos6502/mod.rs: Mos6502IntoIterator::next", "src/cpu/mos6502/operations/mod.rs: Generate impls", "src/cpu/mos6502/microcode.rs"]}
{"id": "C66", "title": "An execution that meets no deviation is the reference 6502's execution", "statement": "If the textbook machine executes k instructions in n cycles and meets none of the deviating states, then the emulator executes k instructions with the same final registers and memory in the same n cycles, and run(n) returns exactly that state. Programs built from instructions without deviations need no condition on the data.", "quantifier": "every program, every k, every initial state, every bus that behaves as memory", "why_tests_cant": "Executions are unbounded and the agreement must survive every intermediate state.", "anchors": ["src/cpu/mos6502/mod.rs: Mos6502IntoIterator::next, Cpu::run", "src/cpu/mos6502/operations/mod.rs: Generate impls"]}
{"id": "C67", "title": "A bus sees the stores of the program in order and nothing else", "statement": "After any number of executed instructions (and after any run) the bus, whatever devices it consists of, is exactly the initial bus after the stores of the executed instructions in program order. Each instruction stores to exactly its documented addresses in the documented order, and no program stores more than three bytes per seven cycles.", "quantifier": "every device, every program, every number of instructions or cycles", "why_tests_cant": "Executions are unbounded and devices are arbitrary implementations of a trait; a test observes one device on one program.", "anchors": ["src/cpu/mos6502/mod.rs: Mos6502IntoIterator::next, ExecuteMut<WriteMemory>, Cpu::run"]}
{"id": "C68", "title": "Intercepting stores in captured microcode changes nothing but the intercepted stores", "statement": "Replaying captured microcode while a hook takes the stores to a range of addresses (examples/custom_peripheral_microcode_hook.rs): the hook is told exactly the stores to the range, in order; the bus receives exactly the others; the registers are those of the full replay and of run; on memory the hooked range reads as before and every other address as after the full run.", "quantifier": "every program, every number of cycles, every device, every hooked range, every hook function and state", "why_tests_cant": "Quantifies over all programs, ranges and hooks.", "anchors": ["examples/custom_peripheral_microcode_hook.rs: main", "src/cpu/mos6502/mod.rs: Execute, ExecuteMut"]}
{"id": "C69", "title": "Each store reaches a device once during run", "statement": "During run the devices are told each store of the completed instructions exactly once, and nothing of an instruction that the cycle budget cuts off.", "quantifier": "every program, every device, every number of cycles", "why_tests_cant": "Only visible to devices that share state between clones (a console, Rc<RefCell>), and depends on where the cycles end.", "anchors": ["src/cpu/mos6502/mod.rs: Cpu::run, Mos6502IntoIterator::next"]}
{"id": "C70", "title": "The address-space peripheral example prints 0x55, 0xaa, ... and never panics", "statement": "The machine of examples/custom_peripheral_addr_space.rs can be built and reset, and draining its instruction iterator for n cycles never panics; it prints the bytes 0x55, 0xaa, 0x55, ...; the i-th line is printed exactly if the store that prints it starts before cycle n, and nothing else on the bus changes.", "quantifier": "every number of cycles, every iteration order of the hash map, checked and unchecked builds", "why_tests_cant": "The example asks for 80 cycles once; the claim is for every number of cycles and every hash order.", "anchors": ["examples/custom_peripheral_addr_space.rs: VIA, main", "src/cpu/mos6502/mod.rs: into_iter"]}
{"id": "C71", "title": "The microcode-hook example prints the same lines", "statement": "The machine of examples/custom_peripheral_microcode_hook.rs never panics for any number of cycles, prints 0x55, 0xaa, 0x55, ...; the i-th line exactly if its store is completed within the n cycles; the registers are those of run and the placeholder memory stays untouched. Its output equals that of the address-space example exactly unless the cycles end within a store to port A.", "quantifier": "every number of cycles, every iteration order of the hash map, checked and unchecked builds", "why_tests_cant": "The claim is for every number of cycles and relates two programs.", "anchors": ["examples/custom_peripheral_microcode_hook.rs: main"]}
{"id": "C72", "title": "The CHIP-8 agrees with a complete reference interpreter after every instruction", "statement": "From a state in which the emulator and a reference CHIP-8 interpreter (the usual description: sixteen registers, stack, 60 Hz timers, 64x32 screen, keypad, 4096 bytes) agree on registers, I, program counter, memory, screen, timers and key, run(1) leads to the state the reference interpreter reaches.", "quantifier": "every bus that behaves as memory and accepts stores below 4096, every state, every instruction, every clock and random byte", "why_tests_cant": "Quantifies over all states and all 65536 instruction words against an independent second implementation.", "anchors": ["src/cpu/chip8/operations/mod.rs: Generate impls", "src/cpu/chip8/mod.rs: Cpu::run, ExecuteMut"]}
{"id": "C73", "title": "Whole CHIP-8 programs that avoid the deviating instructions run as on the reference machine", "statement": "If every instruction the reference interpreter executes is one of the faithful ones (and no RET), then run(n) ends in the state of the reference interpreter after n instructions; with a clock that moves during an instruction, up to the instants of the timers. The first RET of such an execution, whatever the clock does, leads to two bytes before the place the reference interpreter returns to, that is to the call itself.", "quantifier": "every program, every number of instructions, every bus that behaves as memory, every clock and random source", "why_tests_cant": "Executions are unbounded; the claim compares two complete machines.", "anchors": ["src/cpu/chip8/mod.rs: Cpu::run, Chip8IntoIterator::next", "src/cpu/chip8/operations/mod.rs"]}
{"id": "C74", "title": "The CHIP-8 timers count sixty times a second", "statement": "A timer written with v at instant t reads v - 60*(now - t) (in whole sixtieths of a second, never below 0) at any later instant.", "quantifier": "every value, every two instants, checked and unchecked builds", "why_tests_cant": "Instants are unbounded and no test waits for a timer.", "anchors": ["src/cpu/chip8/register.rs: ClockDecrementing, Register::read"]}
{"id": "C75", "title": "Fx29 finds the glyph of a digit on the default machine", "statement": "On the default machine with a program loaded at 0x200, Fx29 with a digit in Vx leaves I at five bytes of memory that show the digit.", "quantifier": "every digit, register, program and state of the default machine, every build", "why_tests_cant": "Quantifies over all programs and states; the tests only look at I.", "anchors": ["src/cpu/chip8/operations/mod.rs: LdSpriteLocation", "src/cpu/chip8/mod.rs: Chip8::default", "src/cpu/chip8/display.rs: Font"]}
{"id": "C76", "title": "The bus of a 6502 is reached from outside without touching the CPU", "statement": "register_address_space, with_address_map, with_address_map_mut and with_owned_address_map act on the CPU's address map exactly as the same calls on the map alone: same answers, same errors, same panics; the registers keep their values. with_addressmap gives the registers of a new CPU with the given map.", "quantifier": "every CPU state, every sequence of calls, every closure, every kind of device", "why_tests_cant": "Quantifies over all sequences of calls and all closures; the one test makes three calls.", "anchors": ["src/cpu/mos6502/mod.rs: Mos6502::register_address_space, with_address_map, with_address_map_mut, with_owned_address_map, with_addressmap"]}
{"id": "C77", "title": "Between n/7 and n/2 instructions are executed in n cycles", "statement": "Every 6502 instruction takes at least 2 and at most 7 cycles, whatever the bus answers. So a run of n cycles that does not panic executes at least n/7 and at most n/2 instructions and loses at most its last 6 cycles. Both bounds are reached for every n.", "quantifier": "every bus, every program, every CPU state, every number of cycles, both build modes", "why_tests_cant": "Quantifies over all programs and all cycle counts, including buses whose reads change or fail; tests fix one instruction and its cycles.", "anchors": ["src/cpu/mos6502/mod.rs: <Mos6502 as Cpu>::run, Mos6502IntoIterator::next", "src/cpu/mos6502/operations/mod.rs: Generate impls, Operations::cycles"]}
{"id": "C78", "title": "An address map of address maps behaves like one flat map", "statement": "When the devices of an address map are themselves address maps, every sequence of reads and writes gets the same bytes, echoed values, error texts and panics as on the single map that has all inner devices, each over the addresses common to its own range and to that of the map around it; and the maps left behind still correspond. A device alone in a map over all addresses behaves as the device, so this covers any depth and any mixture. (The outer ranges must not overlap.)", "quantifier": "every outer map with disjoint ranges, all inner maps, every kind of device, every sequence of requests, any depth of nesting", "why_tests_cant": "Quantifies over all maps, nestings and request sequences; no test nests maps.", "anchors": ["src/address_map/mod.rs: impl Addressable for AddressMap (read, write)"]}
{"id": "C79", "title": "Texts and wider integers of a 12-bit value mean its number", "statement": "Formatting a 12-bit value as hexadecimal (either case), octal, binary or decimal gives a numeral of its number, of at most 3, 4, 12 and 4 digits, without leading zeros; zero padding to a width and the # prefix add just that; different values have different texts; the lower-case hexadecimal form has no capital letters and the upper-case form differs from it only in having them. The conversions to u16, u32, u64 and u128 keep the number.", "quantifier": "all 4096 values, every width", "why_tests_cant": "Quantifies over all values and widths; no test formats or widens a u12.", "anchors": ["src/cpu/chip8/u12.rs: Debug, Display, UpperHex, LowerHex, Octal, Binary for u12; impl_from_u12_for_uX"]}
{"id": "C80", "title": "The errors of the bus say what was wrong", "statement": "A refused registration answers with a text that names the requested range and a registered range in which one of its ends lies. A refused write on a bus of memory segments has one of two texts, and the text is right: that the address is unallocated (and then nothing is mapped there; the address is named), or that memory is read-only (and then read-only memory is mapped there).", "quantifier": "every map, every history of registrations and writes, every address and range", "why_tests_cant": "Quantifies over all histories and maps in any iteration order; the tests check a few texts.", "anchors": ["src/address_map/mod.rs: AddressMap::register, AddressMap::write", "src/address_map/memory.rs: Memory<ReadOnly>::write"]}
{"id": "C81", "title": "A program cannot tell apart buses that answer alike", "statement": "If two buses, of whatever kinds, give the same answers (bytes, echoed values, error texts, panics) to every sequence of reads and writes, then two CPUs that are equal but for these buses run alike for ever: the same panic, or equal registers (and for the CHIP-8 equal stack, timers, display, keyboard) and buses that still answer alike; for the 6502 also the same instructions with the same cycles. Alike are: a map and the same map in another hash order; a map of maps and the flattened map; two maps of memory segments that, by whatever histories and however cut into segments, have the same kind of memory and the same byte at each address; one 64K segment and 64K independent cells.", "quantifier": "every pair of buses that answer alike, every CPU state, every number of cycles or instructions, every build, every world (clock, random bytes) of the CHIP-8", "why_tests_cant": "Quantifies over pairs of arbitrary devices and over unbounded runs; a test compares a few concrete machines.", "anchors": ["src/address_map/mod.rs: Addressable", "src/cpu/mos6502/mod.rs: Mos6502::run", "src/cpu/chip8/mod.rs: Chip8::run"]}
{"id": "C82", "title": "Multi-byte addition and subtraction", "statement": "The textbook routine CLC, then LDA/ADC/STA for each byte, low byte first, stores the sum of two n-byte numbers modulo 256^n; SEC with LDA/SBC/STA stores the difference. (False of the code: proved that the addition is right exactly when no byte but the last overflows, 0x00ff+0x0001 being the witness, and the subtraction exactly when no byte of the subtrahend but the last is 0 while the bytes below need no borrow, witness 0x0100-0x0000. In every case the routine ends after 3n+1 instructions and 12n+2 cycles and changes only the result area, A and the arithmetic flags.)", "quantifier": "every number of bytes n, all operand values, every placement of program, operands and result that does not overlap, every bus that answers like memory and accepts writes to the result, both builds", "why_tests_cant": "Numbers of any length: a test adds a few fixed pairs. The exact condition under which the carry chain works is a statement about all of them.", "anchors": ["src/cpu/mos6502/operations/mod.rs: ADC and SBC", "src/cpu/mos6502/operations/mod.rs: Operand arithmetic (twos_complement_add)"]}
{"id": "C83", "title": "The block-copy loop", "statement": "The loop LDX #n; LDA src-1,X; STA dst-1,X; DEX; BNE, assembled as for any 6502, ends behind the BNE with n bytes copied. (False of the code for every n from 2 on: the loop never ends and never changes any byte but the last of the destination. With a branch displacement two higher it copies exactly the n bytes in exactly 4n+1 instructions and 14n+1 cycles, one more for each byte of the source in another page than the base address and for each taken branch to another page, also onto an overlapping destination above the source, and touches nothing else but A, X and the flags.)", "quantifier": "every length n from 1 to 255, every contents, every placement of program, source and destination that does not overwrite the program, every bus that answers like memory and accepts writes to the destination, both builds; for the endless loop every number of instructions", "why_tests_cant": "A test can run the loop for some lengths and some steps; that it never ends is a statement about all executions.", "anchors": ["src/cpu/mos6502/operations/mod.rs: branch_on_case, BNE, DEX, LDA and STA absolute,X", "src/cpu/mos6502/mod.rs: Mos6502 next"]}
{"id": "C84", "title": "No program can change read-only memory", "statement": "On an address map of RAM and ROM segments, every store of a program that runs without panic goes to RAM; afterwards every address reads as the byte last stored there, or as before. So every address of a ROM segment keeps the byte it was loaded with, and code in ROM is the same instruction whenever execution comes back to it. An instruction that stores to ROM or to an unmapped address panics with the error of the bus, unless its address overflows or it uses VF and it panics for that. All this both for the 6502 and for the CHIP-8.", "quantifier": "every history of registrations and writes that built the bus, every program, every number of instructions, cycles or steps, every CPU state, both builds; for the CHIP-8 every clock and every random byte", "why_tests_cant": "Quantifies over all programs and all lengths of execution; a test runs one program for some time.", "anchors": ["src/address_map/memory.rs: Memory<ReadOnly> write", "src/address_map/mod.rs: AddressMap write", "src/cpu/mos6502/mod.rs: run", "src/cpu/chip8/mod.rs: run, WriteMemory"]}
{"id": "C85", "title": "A 6502 program that never panics runs into a loop", "statement": "On 64K of RAM, and on every address map of RAM and ROM segments, a program either panics after some number of cycles, or from some number m of cycles on `run` depends on the cycles only modulo a period t > 0: run(n + t) = run(n) for n >= m. A machine that comes back to a state it was in never panics, repeats the same instructions forever and is never in any other state than those of the loop; on a bus with finitely many states, a program never panics exactly if it reaches such a state.", "quantifier": "every program, every initial state, every memory layout, both builds; all numbers of cycles", "why_tests_cant": "A statement about all executions of unbounded length; tests stop after finitely many cycles.", "anchors": ["src/cpu/mos6502/mod.rs: run, Mos6502IntoIterator next", "src/address_map/mod.rs: AddressMap write", "src/address_map/memory.rs: Memory write"]}
{"id": "C86", "title": "What no executed instruction touches stays", "statement": "A register, flag, timer, stack cell, pixel or byte of memory has the same value after an execution as before if none of the executed instructions is documented to change it. In particular: a 6502 execution whose only stores are pushes changes nothing outside page one; an execution that neither stores nor pushes leaves the whole bus as it was; a CHIP-8 execution without Fx33 and Fx55 does too; the pending key never changes.", "quantifier": "every execution of any length, on every bus that behaves like memory, every state, both builds; for the CHIP-8 every clock and random byte", "why_tests_cant": "Quantifies over all programs and lengths; a test compares a few fields after a few instructions.", "anchors": ["src/cpu/mos6502/mod.rs: run, Mos6502IntoIterator next", "src/cpu/chip8/mod.rs: run, Chip8IntoIterator next"]}
{"id": "C87", "title": "CHIP-8 wait and counting loops do what programmers expect", "statement": "The usual wait loop LD Vx,DT; SE Vx,0; JP back is left exactly at the first reading that shows 0, after 3m + 2 instructions if that is reading m, with Vx = 0 and nothing else changed; until then the program counter stays in the loop; it is left at the latest by the first reading made as many seconds after the timer was written as its value. The counting loop ADD Vy,kk; ADD Vx,0xFF; SE Vx,0; JP back is left after 4t - 1 instructions, t being Vx (256 for 0), with Vx = 0 and Vy increased by t * kk modulo 256.", "quantifier": "every register pair other than VF, every place of the loop in the 4K, every start value, every timer, every clock (monotone or not), every number of rounds, every bus that behaves like memory, both builds", "why_tests_cant": "The number of rounds depends on a clock and on data and is unbounded; a test runs one value against one clock.", "anchors": ["src/cpu/chip8/mod.rs: run, Chip8IntoIterator next", "src/cpu/chip8/operations/mod.rs: LdDelayTimerSrcTx, SeImmediate, AddImmediate, JpNonV0Indexed", "src/cpu/chip8/register.rs: ClockDecrementing"]}
{"id": "C88", "title": "Each device is told exactly the stores to its own addresses", "statement": "After a program has run, the bus has the ranges it had, and every device is what it was, told exactly the stores of the program to the addresses it owns, in program order and with the stored bytes; an address is owned by the first range that holds it, which is the only one if ranges do not overlap. In particular the adapter of the peripheral examples has printed exactly the bytes stored at its first address and its two ports hold the bytes last stored at its first and second address; it takes stores to its four addresses and refuses all others unchanged, naming the address; it can be made exactly if its four addresses exist (always without overflow checks).", "quantifier": "every device type, every bus, every program of both CPUs, every number of cycles or instructions, every list of stores, every base address, both builds", "why_tests_cant": "Quantifies over all programs and devices; the examples run one program against one device and print ten lines.", "anchors": ["src/address_map/mod.rs: Addressable for AddressMap write", "src/cpu/mos6502/mod.rs: run", "src/cpu/chip8/mod.rs: run", "examples/custom_peripheral_addr_space.rs: VIA", "examples/custom_peripheral_microcode_hook.rs: Via"]}
{"id": "C89", "title": "The microcode operations of the 6502 do what they document", "statement": "Each operation that microcode can consist of changes exactly what it names: a write puts the value in the register, an increment or decrement counts modulo 256 (modulo 65536 for pc), for A, X, Y, SP and the status byte alike; a flag operation sets that bit of the status byte and keeps the other seven; a memory write asks the bus once and panics exactly if the bus refuses or panics. Adding and then subtracting the same number restores the CPU; what no operation of a list names is kept by the list; two operations with different targets can be executed in either order, with the same result or the same panic.", "quantifier": "every CPU state, bus, register, flag, value and address, every list of operations, every pair of operations, both builds", "why_tests_cant": "All registers, values and states at once, and all pairs and lists of operations; the tests execute some operations on the default CPU.", "anchors": ["src/cpu/mos6502/microcode.rs: Microcode", "src/cpu/mos6502/mod.rs: ExecuteMut impls"]}
{"id": "C90", "title": "The microcode operations of the CHIP-8 do what they document", "statement": "Each microcode operation of the CHIP-8 has the effect its comment describes: writes, increments and decrements of registers and timers, pushing a value while incrementing the stack pointer, popping while decrementing it, pressing and releasing a key, setting a pixel, and setting all pixels within the bounds of two coordinates.", "quantifier": "every CPU state with its stack of 16 cells, every operation that can be carried out (no VF, an accepting bus, a range on the screen and in order), every clock value, both builds", "why_tests_cant": "All registers, values, coordinates, displays and instants; the tests set the whole screen once and single pixels.", "anchors": ["src/cpu/chip8/microcode.rs: Microcode", "src/cpu/chip8/mod.rs: ExecuteMut impls"]}
{"id": "C91", "title": "Structured programs compute on the CHIP-8 what they mean", "statement": "Take any program built from byte assignments (constant, sum with a constant, copy, or, and, xor), conditionals and loops, nested in any way, over V0 to VE, and its usual CHIP-8 code (skip instructions and jumps). Run on the emulator, a program that ends leaves in V0 to VE what it means, after exactly the counted number of instructions, and changes nothing else; a program that does not end stays inside its code for ever without a panic; so the emulator gets behind the code exactly if the program ends. The clock and the random numbers play no part.", "quantifier": "every program of any size and nesting depth, every start address at which its code fits, every register content and machine state, every environment, any number of loop iterations, both builds", "why_tests_cant": "All programs and all unbounded executions at once, including those that never end; the tests run one instruction at a time.", "anchors": ["src/cpu/chip8/mod.rs: run, IntoIterator", "src/cpu/chip8/operations/mod.rs: skip, jump, load and arithmetic instructions"]}
{"id": "C92", "title": "Structured programs compute on the 6502 what they mean", "statement": "Take any program built from byte assignments, conditionals and loops over the cells of the zero page, and its usual 6502 code (accumulator, compare, a branch over a jump). Run on the emulator, a program that ends leaves in the zero page what it means and changes no other memory, no index register and no stack; a program that does not end stays inside its code for ever without a panic.", "quantifier": "every program of any size and nesting depth, every address above the zero page at which its code fits, every memory content, every coherent bus that accepts writes to the zero page, any number of loop iterations, both builds", "why_tests_cant": "All programs and all unbounded executions at once, including those that never end; the tests run one instruction at a time.", "anchors": ["src/cpu/mos6502/mod.rs: run, IntoIterator", "src/cpu/mos6502/operations/mod.rs: branches, CMP, ADC, JMP, LDA, STA"]}
{"id": "C93", "title": "An address map of any address and value type answers as its devices do separately", "statement": "For every type of addresses with any comparison, every type of values and every type of device: if no address lies in two ranges of an address map, then it answers any sequence of reads and writes exactly as its devices would separately, each given, in order and with the full address, the requests in its own range; a request in no range reads the default value or is refused with a text naming the address. It panics only if a device does. The iteration order makes no difference. A registration is refused exactly if a registered range contains the first or the last address of the new one, and otherwise only adds or replaces the entry; under a total order it makes devices share an address exactly if the new range encloses a non-empty registered one. In particular ring buffers on a bus of machine words never panic and read back the value last written, in the same range, to an address congruent modulo the capacity.", "quantifier": "every address type, comparison, value type, device type, map, iteration order, request sequence of any length, both builds", "why_tests_cant": "The map is generic code; the tests use it with 16-bit addresses, one kind of device and single requests.", "anchors": ["src/address_map/mod.rs: Addressable, AddressMap, new, register, read, write", "src/cpu/chip8/memory.rs: Ring"]}
{"id": "C94", "title": "The debug text of an address map lists exactly its ranges", "statement": "The debug text of an address map, read back, gives the first and last address of each of its ranges, in iteration order and nothing else; two maps print the same exactly if they have the same ranges in the same order, whatever their devices.", "quantifier": "every map with any number of ranges of 16-bit (or machine-word) addresses, every device type", "why_tests_cant": "No test looks at the text; all maps of any size at once.", "anchors": ["src/address_map/mod.rs: impl Debug for AddressMap"]}
{"id": "C95", "title": "Recursive programs compute on the 6502 what they mean, as long as the stack page suffices", "statement": "Take any program of byte assignments, conditionals, loops, calls of mutually recursive procedures and blocks that keep a variable (restore its value afterwards) over the cells of the zero page, with JSR and RTS for calls, PHA and PLA for kept variables, and branches as the emulator counts them (C92). Charge two bytes of stack for a call and one for a kept variable. A program that ends within the free bytes of the stack page leaves in the zero page what it means after the counted number of instructions, with the stack pointer, the bytes that were on the stack, the index registers and all memory from 512 on unchanged. A program that does not end, and whose calls fit, stays inside its code for ever without a panic.", "quantifier": "every program and every family of procedures of any size, nesting and recursion depth up to the 256 bytes of the page, every placement of main program and procedures from 512 on, every stack pointer and stack content, every memory, every coherent bus that accepts writes to the first two pages, both builds", "why_tests_cant": "All recursive programs and unbounded executions at once, with wrap-around of the stack pointer; the tests run single instructions.", "anchors": ["src/cpu/mos6502/operations/mod.rs: JSR, RTS, PHA, PLA", "src/cpu/mos6502/mod.rs: run, IntoIterator", "src/cpu/mos6502/register.rs: StackPointer"]}
{"id": "C96", "title": "The message of a panic tells what went wrong", "statement": "When a 6502 on a bus of memory segments panics, in a single step or anywhere in a run, its message names the cause and the cause is real: an arithmetic overflow of pc or of an address, the number of an opcode that no 6502 manual documents and that stands at pc, a store to read-only memory, or the number of an address to which the instruction stores and at which nothing is mapped. The same for a CHIP-8 on such a bus: an overflow of pc, of an address or of the product of Fx29; the word at pc, in hexadecimal, which is no CHIP-8 instruction; an index out of bounds, which means that the instruction uses the register VF the emulator lacks; a store to read-only memory; or the number of an unmapped address to which the instruction stores. Neither CPU panics in any other way. On every bus, a CHIP-8 that comes to a word that is no instruction panics with a message that names the word; different words have different messages. The CHIP-8 decoder looks at the first two bytes it is given and panics if there are fewer.", "quantifier": "every history of the bus, every CPU state, every number of cycles or instructions, both builds; for the CHIP-8 every clock, every random byte and every word", "why_tests_cant": "There are 105 undocumented opcodes, thousands of CHIP-8 words that are no instruction, and 65536 addresses a message can name; the cause can lie anywhere in a run.", "anchors": ["src/cpu/mos6502/mod.rs:258-278", "src/cpu/chip8/operations/mod.rs:177-238", "src/address_map/mod.rs:142-155", "src/address_map/memory.rs:84-105"]}
{"id": "C97", "title": "New machines are blank and run for ever", "statement": "Mos6502::new and Chip8::default (reset) do not panic. The new 6502 has A = X = Y = 0, pc = 0, stack pointer 0xff and status 0x20; its memory reads 0 everywhere and takes writes below 0x200 only; resetting it gives the same machine after 6 cycles. Run for n cycles it does n/7 BRKs at address 0 and never panics: registers, flags and every byte of memory are those of n/7 documented pushes of the address 1 (low byte first) and of the status, round and round the stack page. The new CHIP-8 has pc = 0x200, I = V0..VE = 0, dark display, empty stack, no key, timers that read 0 at every instant, and memory that reads 0 and takes writes below 0x1000 only. Run for n instructions it does nothing but move pc by 2n modulo 65536 and never panics.", "quantifier": "both builds, every order of the bus's hash table, every number of cycles or instructions, every behaviour of clock, keys and random generator", "why_tests_cant": "A test runs a new machine for some cycles; that it never panics and what each of the 256 stack bytes holds after any number of wrap-arounds is a statement about all numbers of cycles.", "anchors": ["src/cpu/mos6502/mod.rs:199-215", "src/cpu/mos6502/register.rs:105-153", "src/cpu/chip8/mod.rs:251-287"]}
{"id": "C98", "title": "A CHIP-8 program that asks nothing of the world loops or panics, the same way everywhere", "statement": "Two runs of the same CHIP-8 state in two worlds (clocks and random generators) do the same as long as no executed instruction reads the delay timer (Fx07) and each Cxkk gets the same random byte in both: they panic with the same panic or return states that differ at most in the instants at which the timers were written. A program that executes neither Fx07 nor Cxkk either panics after some number of instructions or runs into a loop: from some number of instructions on, the state after n + t instructions is the state after n but for those instants. In a world where the clock and the generator stand still this holds of every program, and the states are then equal. As soon as a program that asks nothing is back in a state it was in before, it never panics and repeats with that period for ever.", "quantifier": "every state, every program, every number of instructions, both builds, every clock and every random sequence; the first and last statement on every bus, the others on every bus that has finitely many states, among them every address map of memory segments", "why_tests_cant": "It speaks of all worlds at once and of runs that never end; a test runs one program for some steps with one clock.", "anchors": ["src/cpu/chip8/mod.rs:293-301", "src/cpu/chip8/mod.rs:338-364", "src/cpu/chip8/operations/mod.rs"]}
{"id": "C99", "title": "Subroutines on the CHIP-8 never return past their call", "statement": "It would be expected that a structured program with procedures (called with 2nnn, ended by 00EE) that ends with at most sixteen calls open at a time ends on the CHIP-8 behind its code with the values it means in V0 to VE. This does not hold: a program that calls a procedure once never gets behind its code. What holds: a program that ends without coming to a call ends as it means, after exactly the instructions counted, with everything but V0 to VE unchanged. A program that loops for ever or comes to a call keeps the machine inside the code of program and procedures for any number of instructions, without a panic, changing nothing but V0 to VE and the one stack entry at the stack pointer; so, unless the end of the program lies inside a procedure, the machine gets behind the code exactly if the program ends without a call. A call of a procedure that itself ends without a call is at the call again two instructions after the procedure's own, and so repeats it for ever: at the end of round j the procedure has been done j times.", "quantifier": "for every structured program and every family of procedures without pushed variables, nested and recursive calls included, at every place where code and procedures fit below 4095, every machine with a stack of sixteen entries, every bus that reads consistently, all values of V0 to VE, every clock and sequence of random numbers, every number of instructions or rounds, both builds", "why_tests_cant": "Whether control ever leaves a program is a statement about all numbers of steps, and about all programs that make a call; a test sees a few programs for a bounded time and cannot tell a program that will return from one that never does.", "anchors": ["src/cpu/chip8/operations/mod.rs:256-276", "src/cpu/chip8/operations/mod.rs:681-710", "src/cpu/chip8/mod.rs:505-525", "src/cpu/chip8/memory.rs"]}
{"id": "C100", "title": "Structured programs on the 6502 take exactly the sum of the documented cycles", "statement": "Give each part of a structured program with recursive procedures its documented time: an assignment of a constant 5 cycles, a copy 6, an addition 10, a bitwise operation 9, a test 7 (8 against a variable) and one more if it holds, and another one if a page ends between its branch and the branch's target, a jump 3, a call and a return 6 each, pushing a variable 6, restoring it 7. If the program, with the values of the zero page, ends in the time t so counted and its procedures need no more stack than there is, then running the machine for exactly t cycles stops right behind the program's code with the values the program means, with stack pointer, stack, X, Y and memory from 512 on as before. As long as the instructions executed take less than t cycles in all, the machine is inside the code of program and procedures. Every program that ends has exactly one such time at each place.", "quantifier": "for every structured program and family of procedures, nested and recursive calls included, at every place where code and procedures fit between 512 and 65532, all start values, every depth of recursion that fits into the 256-byte stack page, whatever bytes are on the stack already, every bus that reads consistently and accepts writes below 512, both builds", "why_tests_cant": "The time depends on every test on the way, on how often each loop and recursion runs and on where in a page each branch lies; a test measures a few programs at one place, while one wrong cycle in one instruction shifts all running times.", "anchors": ["src/cpu/mos6502/operations/mod.rs: cycles of LDA, STA, ADC, CMP, branches, JMP, JSR, RTS, PHA, PLA", "src/cpu/mos6502/mod.rs: run, IntoIterator", "src/cpu/mod.rs: StepState, run"]}
{"id": "C101", "title": "What a 6502 instruction asks its bus", "statement": "It would be expected that an instruction reads the bytes it consists of, then the places its addressing mode and operation need, and nothing else. This does not hold: every instruction reads three bytes at the program counter, so a one- or two-byte instruction in front of a device makes a read of the device it never asked for (a keyboard that hands out each key once loses a key to a NOP). What holds, whatever the devices answer and however they change: the calls of one instruction are the three reads at pc, pc+1, pc+2 (with wrap-around), then the documented reads of the addressing mode and operation (pointer bytes, operand, stack bytes), each exactly once and in the documented order, then the instruction's stores; all on the bus of the CPU that executes it. Registers, cycles and stores are those the same instruction has on a memory that holds the bytes that were read. The bytes of the instruction itself are read, and first. An instruction that panics has made only the first of these reads and panics as on any memory holding the bytes read, or made all of them and its stores up to one that the bus refuses, the panic being the refusal. An instruction that goes through a pointer may read a byte of the pointer once more as its operand and be answered differently, so that no memory holds what it read; it then has the registers and stores of the same operation with the address written out and the operand it was given, and takes as long as on every memory holding the pointer. One of the two always applies.", "quantifier": "for all 151 instructions, all registers, all answers devices may give to reads and writes (devices may change with every read, share state between clones or refuse writes), both builds", "why_tests_cant": "Reads with side effects are devices a test has to invent one by one; that no instruction makes another read, in another order or twice, is a statement about all answer sequences.", "anchors": ["src/cpu/mos6502/mod.rs:255-281", "src/cpu/mos6502/operations/mod.rs:256-290", "src/cpu/mos6502/operations/mod.rs: generate of every instruction", "src/address_map/mod.rs:34-66"]}
{"id": "C102", "title": "What a run of the 6502 asks its bus", "statement": "A run of n cycles makes these calls and no others: for each instruction whose cycles all fit, its reads and stores on the iterator's clone of the bus, then its stores once more, in the same order, on the CPU's own bus; for the instruction in which the cycles end, its reads and stores on the clone only. The registers are those after the completed instructions. The CPU's own bus is never read. On devices that are plain values the calls produce what run produces, panics included, and leave everything outside them alone. reset makes exactly two reads, 0xfffc and then 0xfffd, on the CPU's bus, and its program counter is made of the answers. A run that panics made the calls of the instructions completed before, and then either the next instruction panics on the clone or the CPU's own bus refuses a store that the clone accepted.", "quantifier": "for all registers, all numbers of cycles, all devices and all sequences of answers they give, including devices that change when read and devices shared between the clones, both builds", "why_tests_cant": "How often and in which order two copies of a bus are read and written during a run of any length cannot be enumerated; a test watches one device for a few instructions.", "anchors": ["src/cpu/mos6502/mod.rs:105-115", "src/cpu/mos6502/mod.rs:217-331", "src/address_map/mod.rs:34-66"]}
{"id": "C103", "title": "Memory shared between the clones of a bus", "statement": "It would be expected that run does with memory shared between the clones of the bus (a device behind Rc<RefCell<..>>, as clones are made by run) what it does with memory of its own. This does not hold: an INC in front of one-cycle runs adds one to the shared cell with every call of run and is never finished. What holds for memory made of cells (storing to a cell replaces its value, cells are independent): a run that ends with an instruction leaves exactly the registers and memory of a run on own memory, however many instructions it has; a run that ends within an instruction leaves the registers before that instruction and the memory after it; a run that panics on own memory panics the same way on shared memory. The emulator's memory and maps of it are made of cells.", "quantifier": "for every bus made of cells, all programs, registers and contents, all numbers of cycles and instructions, every number of calls of run in the counting example, both builds", "why_tests_cant": "The difference shows only if a call of run ends within a storing instruction, and the agreement is a statement about all programs and all buses.", "anchors": ["src/cpu/mos6502/mod.rs:217-331", "src/address_map/memory.rs"]}
{"id": "C104", "title": "What the CHIP-8 asks its bus", "statement": "Whatever the devices on its bus answer and however they change: an instruction that completes reads the two bytes at pc and pc+1, then the bytes at I it needs (the registers of Fx65; nothing for any other instruction that completes), each exactly once and in ascending order, then stores its bytes at I in ascending order (the three digits of Fx33, the registers of Fx55), and makes no other call; all addresses wrap at 65536. Its microcode and the machine afterwards are those on a memory that holds the bytes that were read. An instruction that panics has made a beginning of this sequence, and stores only after all its reads. A run of n instructions makes the calls of each on the iterator's clone of the bus, each instruction's stores being repeated at once, in order, on the machine's own bus, which is never read. On devices that are plain values these calls give what run gives, panics included. A run that panics made the calls of the instructions before, and then either the next instruction panics on the clone, for a reason it would have on every memory with the bytes it has read or because a store is refused, or the machine's own bus refuses a store that the clone accepted.", "quantifier": "for all instructions, all machine states, clocks and random bytes, all numbers of instructions, all devices and all sequences of answers (devices may change when read, be shared between clones or refuse writes), both builds", "why_tests_cant": "That no instruction makes another read, in another order or twice, on either of two clones of the bus, is a statement about all answer sequences and runs of any length.", "anchors": ["src/cpu/chip8/mod.rs:289-365", "src/cpu/chip8/operations/mod.rs: generate of every instruction", "src/address_map/mod.rs:34-66"]}
{"id": "C105", "title": "CHIP-8 memory shared between the clones of a bus", "statement": "On memory that is shared between the clones of the bus (a device behind Rc<RefCell<..>>), run leaves exactly the machine and the memory it leaves on memory of its own, for every program, number of instructions and clock, and it panics exactly where and how it does there; unlike the 6502, whose runs may end within an instruction. Condition: the memory is made of cells (storing to a cell replaces its value, cells are independent), as the emulator's memory and maps of it are. Without the condition it fails: every store reaches a shared device twice, so a device that adds up what it is given counts double.", "quantifier": "for every bus made of cells, all machine states and programs, all clocks and random bytes, all numbers of instructions, both builds", "why_tests_cant": "Every instruction is executed twice on the shared memory; that this is never visible is a statement about all programs and buses.", "anchors": ["src/cpu/chip8/mod.rs:289-365", "src/address_map/memory.rs", "src/address_map/mod.rs:127-156"]}
{"id": "C106", "title": "The CHIP-8's random generator across runs", "statement": "Expected: running a CHIP-8 for m and then for n instructions uses its random-number generator as one run of m+n does. This fails for a generator that keeps its state in itself, such as a stateful closure: run works on a clone of the generator and drops it, so the next run is given the same bytes again, and a machine that is driven one instruction at a time gets the first byte for ever. What holds for every generator: a run asks it once for each Cxkk it executes, in order, and for nothing else, and those instructions get those bytes; the machine that is returned has the generator it had before; everything proved of runs with arbitrary random bytes applies. For a generator that keeps nothing in the clone, such as the one that reads /dev/random, runs compose; its bytes are exactly the next answers of the system, and an answer that is an error is a panic.", "quantifier": "for all generators with their own state and state shared by all clones, all buses, machine states, programs, clocks, numbers of instructions and calls of run, both builds", "why_tests_cant": "A test with one run, or with /dev/random, does not see the repetition; the claim is about any number of runs and every generator.", "anchors": ["src/cpu/chip8/mod.rs: GenerateRandom and its impl for closures, UnixRandomNumberGenerator", "src/cpu/chip8/mod.rs:261-364", "src/cpu/chip8/operations/mod.rs: Rnd"]}
{"id": "C107", "title": "A map passes every call to one device", "statement": "On a map of devices that may change when read, share state or refuse: a read or write of an address that belongs to one device is that same call on that device, at the same address: its answer, its panic, its change and its effect on anything shared; every other device is left alone and its place in the map is kept. A read of an address that belongs to no device gives 0 and a write there is refused, and no device notices either. On devices that are plain values such a map is exactly the map of values, for overlapping ranges too.", "quantifier": "for all maps of any devices, all addresses, bytes and shared states, both builds", "why_tests_cant": "That devices that are not addressed are not even asked is about all maps and devices; tests use memory, where an additional read is invisible.", "anchors": ["src/address_map/mod.rs:68-156"]}
{"id": "C108", "title": "Reads that have an effect", "statement": "Expected: devices that change when read (an input that gives one byte after the other) give in a run of m and then a run of n instructions what they give in one run of m+n. This fails: run reads a clone of the devices, which is dropped, so a second run reads the same input again. What holds for all devices whose clones are independent, of either CPU: after a run the devices have seen exactly the stores of the completed instructions, in order, and no read; so devices that only give input never advance, however often the CPU is run.", "quantifier": "for all devices with state of their own, all machine states, programs, clocks, numbers of cycles and of runs, both builds, both CPUs", "why_tests_cant": "The loss shows only on devices with an effect on reads and over several runs, and that it is total is a statement about all of them.", "anchors": ["src/cpu/mos6502/mod.rs:217-331", "src/cpu/chip8/mod.rs:261-364", "src/address_map/mod.rs:34-66"]}
{"id": "C109", "title": "The buffered generator and a wrapped generator that fails", "statement": "Expected (a comment in the code says so): reading from the buffered generator never fails as long as it is alive. This fails if the wrapped generator panics, as the one for /dev/random does when it cannot be read: its thread ends, and once the buffer is empty every call panics. What holds, whatever the scheduling: the k-th call gets the k-th byte of the wrapped generator; a call panics only if the wrapped generator has panicked, and only after every byte it gave before has been delivered; once that many bytes have been delivered no further byte is; no call waits for ever: it is answered or panics within 2*bound+2 steps of the two threads.", "quantifier": "for all wrapped generators, whichever of their calls panic, all bounds, all interleavings of producer and consumer", "why_tests_cant": "Needs a failing system and all schedules; tests use a generator that always answers.", "anchors": ["src/cpu/chip8/mod.rs:55-95"]}
{"id": "C110", "title": "Overflow checks never change a result: the checked and the unchecked build agree until the checked one panics", "statement": "For every machine state, device set and number of cycles, running the 6502 or the CHIP-8 in a build with overflow checks either gives exactly what the build without them gives (the same machine, or the same panic with the same text) or ends in an arithmetic overflow panic. The same holds for reset, single instructions, execution of arbitrary microcode, making and using memories, address maps nested to any depth, timers and 12-bit arithmetic. So a program that runs in a debug build runs identically in a release build. On devices that change when they are read, share state between clones or act on the world, both builds also make the same calls with the same answers, call for call, up to the overflow, and leave the devices and the world alike.", "quantifier": "every state of either machine, every device set of which the builds agree (all of the crate's own), every number of cycles or instructions, every clock and random sequence", "why_tests_cant": "Tests run in one build profile only; agreement is a statement about two builds over all programs and states.", "anchors": ["src/cpu/mos6502/mod.rs:105-132", "src/cpu/mos6502/mod.rs:217-279", "src/cpu/mos6502/operations/mod.rs:97-235", "src/cpu/chip8/mod.rs:293-301", "src/cpu/chip8/mod.rs:338-364", "src/cpu/chip8/operations/mod.rs:116-175", "src/cpu/chip8/register.rs:108-119", "src/cpu/chip8/u12.rs:104-162", "src/address_map/memory.rs", "src/address_map/page.rs:33-43"]}
{"id": "C111", "title": "Position-independent 6502 code does the same wherever it is loaded", "statement": "Take any execution of the 6502 whose instructions are not jumps, calls, returns or software interrupts, lie in a code area, and touch data (operands, pointers, stack) only outside that area and outside the place it is to be moved to. A machine that holds the same code at any distance, the same bytes elsewhere, and the same registers with the program counter moved, executes the same instructions one by one, with the same registers (program counter moved) before and after each, and ends with the same data. Only cycle counts can differ, by one for a taken branch, because crossing a page depends on the address; moved by whole pages, code takes the same cycles, so running both machines for the same number of cycles keeps them in step. Jumps have to be excluded.", "quantifier": "every execution of any length, every distance (modulo 64K, overlapping or not), every code area, both builds, every two buses that store what is written", "why_tests_cant": "Tests load their code at one address; the claim compares all programs at all pairs of addresses.", "anchors": ["src/cpu/mos6502/mod.rs:217-279", "src/cpu/mos6502/mod.rs:283-370", "src/cpu/mos6502/operations/mod.rs:237-273"]}
{"id": "C112", "title": "All that counts of a timer is what it shows, and nothing counts of the sound timer", "statement": "Two CHIP-8 machines that agree in everything but how their timers are kept, and whose timers show the same from some instant on, run alike from then on: the same panic, or the same microcode and again such machines. So a timer may be replaced by one set k seconds later to k less, or, once it has run down, by one set to nought. If every timer was set d later and the clock shows d more, a run is the same save that it stores instants d later. Machines that differ in the sound timer alone, however much, run alike.", "quantifier": "every program and state, every pair of such timers, every amount of shift, every number of instructions, every device, both builds, whatever instants the clock shows (they need not increase)", "why_tests_cant": "Tests read a timer at one or two instants on one machine; this compares pairs of machines over all runs and all clocks.", "anchors": ["src/cpu/chip8/register.rs:99-143", "src/cpu/chip8/mod.rs:427-467", "src/cpu/chip8/operations/mod.rs"]}
{"id": "C113", "title": "What a 6502 execution does not look at does not matter", "statement": "Two machines that differ in some registers, flags and bytes of memory only (D) execute the same instructions, with the same microcode and cycles, as long as no instruction looks at a part in D before an instruction has given it a new value; afterwards they differ at most in the parts of D not set. What each instruction looks at is listed: its own bytes, the index register and pointer of its addressing mode, its operand byte, and the registers, flags and stack bytes its mnemonic stands for; DEY looks at X too (a bug). In particular the decimal, interrupt and break flags and bit 5 of the status influence nothing but what PHP and BRK push: ADC and SBC ignore decimal mode.", "quantifier": "every program, every pair of states, every set D of parts, every execution along which no executed instruction looks at D, every number of cycles, every pair of buses that behave like memory, both builds", "why_tests_cant": "It compares pairs of runs for all pairs of states; a test compares a run with a literal.", "anchors": ["src/cpu/mos6502/operations/mod.rs", "src/cpu/mos6502/mod.rs"]}
{"id": "C114", "title": "What a CHIP-8 execution does not look at does not matter", "statement": "Two CHIP-8 machines that differ in some parts of the state only (registers, I, the stack pointer, stack cells, the timers, the display, the pending key, bytes of memory: D; the generators of random numbers may differ even in their type) execute the same instructions in the same worlds as long as no instruction looks at a part in D before an instruction has given it a new value; afterwards they differ at most in the parts of D not set. What each instruction looks at is listed. This also holds for run with any number of cycles and a clock that moves between the two executions of an instruction. In particular the display, the sound timer and the generator's internals influence no run.", "quantifier": "every program, every pair of states with 16 stack cells, every set D of parts, every execution along which no executed instruction looks at D, every world (random bytes and clock readings), every number of cycles, every pair of buses that behave like memory, both builds", "why_tests_cant": "It compares pairs of runs for all pairs of states; a test compares a run with a literal.", "anchors": ["src/cpu/chip8/operations/mod.rs", "src/cpu/chip8/mod.rs"]}
{"id": "C115", "title": "A CHIP-8 program can be moved if its jumps and calls are adjusted", "statement": "Move the instructions of a program by any distance k and add k to the addresses of its jumps (1nnn, Bnnn) and calls (2nnn): the moved program does what the original does. After every execution, and after run with any number of cycles, both machines have the same registers, I, timers, stack pointer, display, pending key and data, and the program counter and the return addresses pushed differ by exactly k. Needed: data read and written lie outside the program and the place it is moved to, returns find pushed addresses, indexed jumps do not run over 0xfff.", "quantifier": "every program (any set of instruction addresses), every distance, every pair of related states, every execution and number of cycles, every world (random bytes and clock readings), every pair of buses that behave like memory, both builds", "why_tests_cant": "It compares two different programs in two machines for all programs and states; a test fixes one program.", "anchors": ["src/cpu/chip8/operations/mod.rs", "src/cpu/chip8/mod.rs"]}
{"id": "C116", "title": "The registers of a CHIP-8 program can be renamed", "statement": "Exchange the names V0 to VE in all instructions of a program (any renaming that keeps different registers different and leaves VF alone) and in the start state: the renamed program does what the original does. After every execution, and after run with any number of cycles, both machines have the same program counter, I, stack, stack pointer, timers, display, pending key and data, and each register of the first has its value under its new name in the second. So no instruction favours a register, apart from the ones documented: Bnnn adds V0, and Fx55 and Fx65 take V0 to Vx in order; where those are executed, V0, or V0 to Vx, must keep their names. Needed: data read and written lie outside the program.", "quantifier": "every renaming, every program (any set of instruction addresses), every pair of related states, every execution and number of cycles, every world (random bytes and clock readings), every pair of buses that behave like memory, both builds", "why_tests_cant": "It compares every program with all its renamings in all states; a test fixes one program and its registers.", "anchors": ["src/cpu/chip8/operations/mod.rs", "src/cpu/chip8/register.rs", "src/cpu/chip8/mod.rs"]}
{"id": "C117", "title": "Code in memory is executed in the order in which it is written, without prefetch", "statement": "Every 6502 instruction has exactly one encoding, and bytes are the encoding of one sequence of instructions at most (no instruction is the beginning of another), so assembling and reading back are inverse. A sequence of instructions without jumps, branches, calls, returns and breaks, assembled at the program counter, is executed in that order, one after the other, with the program counter at the beginning of each, to its end (on a bus that accepts stores, without overflow checks); only a store into the instructions that follow can change this. Such a store takes effect at once: the next instruction is the one memory holds after the store. The same holds for CHIP-8 code without jumps, calls, returns and skips.", "quantifier": "every sequence of instructions of any length with any operands, every address (code may wrap around the end of memory), every state, every bus that behaves like memory, both builds unless stated", "why_tests_cant": "A test runs some sequences of instructions; the number of sequences is unbounded, and an ambiguity of the encoding may concern any pair of them.", "anchors": ["src/cpu/mos6502/operations/mod.rs", "src/cpu/mos6502/mod.rs", "src/cpu/chip8/operations/mod.rs", "src/cpu/chip8/mod.rs"]}
{"id": "C118", "title": "The index registers X and Y of the 6502 can be exchanged", "statement": "A 6502 program in which every instruction that involves X is replaced by its counterpart for Y and conversely (LDX/LDY, STX/STY, CPX/CPY, INX/INY, DEX/DEY, TAX/TAY, TXA/TYA, and abs,X/abs,Y of the accumulator instructions), started with X and Y exchanged, does the same with X and Y exchanged: the same accumulator, stack pointer, program counter, flags and data, in the same number of cycles, instruction by instruction.", "quantifier": "every instruction with a counterpart, every state, every program whose opcodes are not used as data, every number of cycles, every two buses that behave like memory, both builds", "why_tests_cant": "A test compares the two registers in the states it sets up; the claim is about every pair of values of X and Y, every operand and every program, and the one exception (DEY) shows only when X - 1 and Y - 1 differ in sign or in being zero.", "anchors": ["src/cpu/mos6502/operations/mod.rs", "src/cpu/mos6502/mod.rs", "src/cpu/mos6502/microcode.rs"]}
{"id": "C119", "title": "Independent instructions can be executed in either order", "statement": "Two instructions that follow one another, of which neither transfers control and neither looks at a register, flag, timer or byte of memory that the other one gives a value, do the same when they are written in the other order: the machine arrives at the same program counter after the same number of cycles, and everything is the same but the bytes of the two instructions themselves and what both instructions give a value, where the one executed last decides.", "quantifier": "every two instructions of the 6502 and of the CHIP-8, every state, every two buses that behave like memory, every random number and every time (each going with its instruction), both builds", "why_tests_cant": "There are more than twenty thousand pairs of 6502 instructions, each with its operands and states; a hidden dependence (a cycle counter that looks back, an address kept from the last instruction, a flag used by accident) shows only for some pair in some state.", "anchors": ["src/cpu/mos6502/operations/mod.rs", "src/cpu/mos6502/mod.rs", "src/cpu/mos6502/microcode.rs", "src/cpu/chip8/operations/mod.rs", "src/cpu/chip8/mod.rs"]}
{"id": "C120", "title": "An instruction that does not look at what it sets can be repeated", "statement": "An instruction that does not transfer control and does not look at any register, flag, timer or byte of memory that it gives a value, executed twice in a row, leaves what it leaves when executed once: the second time it takes the same number of cycles (6502) and changes nothing but the program counter. The same holds for the instructions AND and OR, although they look at the register they set.", "quantifier": "every instruction of the 6502 and of the CHIP-8 with any operand, every state in which the condition holds, every bus that behaves like memory, every random number and time (the same for both executions), both builds", "why_tests_cant": "The claim is about every instruction in every state; state hidden in an instruction (a counter, a flag kept from the last execution) shows only when the same instruction is executed again, which the tests, one instruction each, never do.", "anchors": ["src/cpu/mos6502/operations/mod.rs", "src/cpu/mos6502/mod.rs", "src/cpu/mos6502/microcode.rs", "src/cpu/chip8/operations/mod.rs", "src/cpu/chip8/mod.rs"]}
{"id": "C121", "title": "Instructions that undo each other", "statement": "INX and DEX, INY and DEY, INC and DEC of the same byte in either order, EOR twice with the same operand, ROL and ROR in either order, ASL followed by ROR, LSR followed by ROL, and ADC (carry clear), SEC, SBC of the same operand leave all registers but the program counter and the flags, and all of the memory, as they were. The flags negative and zero are those of the restored value; the rotations also restore the carry, a shift and the rotation back leave it clear. On the CHIP-8, XOR Vx, Vy twice (x different from y) and ADD Vx, kk followed by ADD Vx, kk' with kk + kk' a multiple of 256 restore the whole state but the program counter.", "quantifier": "every state, every operand in every addressing mode the instructions have, every bus that behaves like memory, both builds", "why_tests_cant": "Each pair is claimed for all values, flags, addresses and addressing modes; the tests execute single instructions on one or two values.", "anchors": ["src/cpu/mos6502/operations/mod.rs", "src/cpu/mos6502/mod.rs", "src/cpu/chip8/operations/mod.rs"]}
{"id": "C122", "title": "An instruction whose results are not looked at can be replaced by one that does nothing", "statement": "If a program executes an instruction that does not transfer control, and no later instruction of the execution looks at a register, flag, timer or byte of memory this instruction set before it is set anew, then the program in which the bytes of the instruction are NOPs (on the CHIP-8: a SYS, which the interpreter steps over) executes the same instructions after it, and in the end all parts of the state agree but those that the instruction set and nothing set since, and the replaced bytes themselves.", "quantifier": "every instruction with every operand, every continuation of any length, every state, every bus that behaves like memory, every sequence of random numbers and times, both builds", "why_tests_cant": "The claim is about every program and what follows an instruction arbitrarily far away; a dependence outside the registers (hidden state, a prefetch, a byte of the instruction read again later) shows only in certain combinations.", "anchors": ["src/cpu/mos6502/operations/mod.rs", "src/cpu/mos6502/mod.rs", "src/cpu/mos6502/microcode.rs", "src/cpu/chip8/operations/mod.rs", "src/cpu/chip8/mod.rs"]}
{"id": "C123", "title": "Splitting a byte into nibbles loses nothing", "statement": "The upper nibble of a byte is its quotient by 16 and the lower one the remainder; the big-endian pair of nibbles is (upper, lower) and the little-endian pair the same reversed; different bytes have different nibbles, any two numbers below 16 are the nibbles of a byte, and putting the nibbles of a byte together gives the byte. Of numbers too large for a nibble only the low four bits are used.", "quantifier": "every byte, every pair of bytes", "why_tests_cant": "Masks and shifts can be wrong for single values; the tests take a few.", "anchors": ["src/cpu/chip8/operations/mod.rs"]}
{"id": "C124", "title": "A 6502 program can be moved if its jumps, calls and stored code addresses are adjusted", "statement": "Move the instructions of a program by a distance, add the distance to the targets of its absolute jumps and calls, and to the code addresses it keeps in memory (return addresses on the stack, targets of indirect jumps, the interrupt vector). As long as the program executes its own instructions, looks at code and code addresses only to jump by them, and does not store into the moved code, the moved program executes the same instructions (with adjusted targets): the registers are the same, the program counter is ahead by the distance, and memory differs only in code and code addresses, which are adjusted again. Each instruction takes as many cycles, except that a taken branch may take one more or less; moved by whole pages, the programs run in step for any number of cycles.", "quantifier": "every program, every distance (addresses count modulo 65536), every execution of any length, every instruction of the set with every operand, every state, every bus that behaves like memory, both builds", "why_tests_cant": "The claim relates two different programs at all distances; a dependence on the absolute place of the code (an address computed from a constant, a return address off by a page, a wrapped operand) shows only for certain places and programs.", "anchors": ["src/cpu/mos6502/operations/mod.rs", "src/cpu/mos6502/mod.rs", "src/cpu/mos6502/microcode.rs"]}
{"id": "C125", "title": "Where the stack of a 6502 program is does not matter", "statement": "Change the stack pointer of a machine by any amount and turn the stack page by the same amount (a byte pushed at one end of the page comes out at the other end). As long as the program reaches the stack page by pushing and pulling only, is not in the stack page itself, and does not transfer the stack pointer from or to X, the machine executes the same instructions in the same numbers of cycles: registers and memory stay the same but for the stack pointer and the place of the stack, also when one of the two stacks runs round the end of the page.", "quantifier": "every program and execution of any length, every run for any number of cycles, every amount, every state, every bus that behaves like memory, both builds", "why_tests_cant": "A stack that wraps wrongly is seen only when it is near the end of the page at the moment of a call, return, interrupt, push or pull; the claim compares all 256 places for all programs.", "anchors": ["src/cpu/mos6502/operations/mod.rs", "src/cpu/mos6502/mod.rs", "src/cpu/mos6502/microcode.rs"]}
{"id": "C126", "title": "The variables of a 6502 program can be put elsewhere", "statement": "Give every byte of data a new place (different bytes different places; the stack page and the interrupt vector stay) and change the operands of the program accordingly: zero-page, absolute, indexed and indirect. As long as the program does not look at its own code as data and the changed program does not store into its code, the changed program goes through the same registers, executing the changed instructions at the same addresses, and at each moment every byte is found at its new place. Each instruction takes as many cycles, except that an absolute address with an index may take one more or less, and this only if its place in its page has changed; otherwise the programs run in step for any number of cycles.", "quantifier": "every injective placement, every pair of programs that correspond under it, every execution of any length, every instruction with every operand, every state, every bus that behaves like memory, both builds", "why_tests_cant": "The claim compares two programs for all placements; an address that is treated specially (page 0, a page boundary, an index that wraps) is noticed only by a test with a variable just there.", "anchors": ["src/cpu/mos6502/operations/mod.rs", "src/cpu/mos6502/mod.rs", "src/cpu/mos6502/microcode.rs"]}
{"id": "C127", "title": "The data of a CHIP-8 program can be put elsewhere", "statement": "If every byte of memory gets a new place, different bytes different places, and the addresses a program loads into I are adjusted, then the program does with its data at the new places what it did with them at the old ones: the same instructions, the same registers, stack, timers, display and program counter after every instruction, I pointing at the new place of what it pointed at, and all data at their new places. Required of each executed instruction: it does not take the program for data and does not store into it; bytes it accesses one behind the other (Fx33, Fx55, Fx65) are one behind the other at their new places too; adding to I (Fx1E) leads to the new place; the glyphs of Fx29 stay.", "quantifier": "for all placements, programs, machine states, memories, devices that behave as memory, executions of any length and runs of any number of instructions in any world (clock, random bytes), both builds", "why_tests_cant": "A test runs one program with one layout; that an instruction never depends on where data are is a statement about all layouts and executions.", "anchors": ["src/cpu/chip8/mod.rs:289-365", "src/cpu/chip8/operations/mod.rs: generate of every instruction"]}
{"id": "C128", "title": "The CHIP-8 and the 6502 compute the same", "statement": "Take one program with variables, assignments, conditionals and loops, compile it for both machines – on the CHIP-8 its variables are V0 to VE, on the 6502 any fifteen different bytes of the zero page, with the branches measured as this emulator measures them – and start both with the same values in the variables. Then the CHIP-8 emulator gets to the end of its code exactly if the 6502 emulator gets to the end of its, and when they do, every variable has the same value on both; the 6502 has changed no other byte of its memory.", "quantifier": "For all programs of the language, all assignments of zero-page addresses to the variables, all places of the code, all starting values, all buses that behave as memory, both builds of either machine, all clocks and random numbers, and runs of every length.", "why_tests_cant": "The two emulators share no instruction code; that they agree on every program, including on which programs end, is a statement about pairs of unbounded runs of two different machines.", "anchors": ["src/cpu/chip8/mod.rs", "src/cpu/chip8/operations/mod.rs", "src/cpu/mos6502/mod.rs", "src/cpu/mos6502/operations/mod.rs"]}
{"id": "C129", "title": "The addressing mode only says which byte is meant", "statement": "Two 6502 machines with the same registers execute the same operation, each with any of its addressing modes and on its own memory. If the bytes the two modes lead to are equal, a load, an arithmetic or logical operation or a comparison leaves the same registers and flags in both and stores nothing. If the modes lead to the same address, a store writes the register there in both and changes nothing else, and an increment, decrement, shift or rotation of equal bytes leaves equal bytes and flags. A shift of the accumulator leaves there what the same shift leaves in memory, with the same flags. A direct and an indirect jump with one target leave the same registers, and a transfer is a load of the register it copies. Only the program counter tells the modes apart: each goes on behind its own bytes.", "quantifier": "For all pairs of an operation's addressing modes, all registers and flags, all memories of the two machines, all buses that behave as memory, both builds.", "why_tests_cant": "The crate has a separate hand-written generator for each of the 151 pairs of operation and mode; agreement between any two of them for all registers and memories is a relation between pairs of runs.", "anchors": ["src/cpu/mos6502/operations/mod.rs", "src/cpu/mos6502/microcode.rs"]}
{"id": "C130", "title": "The display shows at every pixel what was drawn there last", "statement": "After any sequence of pixel and sprite writes, each pixel of the display shows what the last write that covers it puts there, and a pixel none of them covers is as before; a sprite covers an opaque box of eight by five pixels. So drawings that agree wherever they meet can be made in any order, and repeating a sequence changes nothing. A line of digits drawn from the left to the right, four or more pixels apart, shows every digit although each sprite wipes out the three columns to the right of its picture, and a line that fits on the screen can be read back: different lines of the same length never look the same, whatever was on the screen before.", "quantifier": "For all displays, all sequences of pixel and sprite writes of any length at any coordinates, all lines of digits, places and distances.", "why_tests_cant": "The sequences and starting displays are unbounded or astronomically many; the existing tests draw one sprite on a blank display.", "anchors": ["src/cpu/chip8/display.rs"]}
{"id": "C131", "title": "Both machines compute table-driven checksums and CRCs", "statement": "The usual loop over a block of 1 to 256 bytes – exclusive-or the byte to the state, look the result up in a table of 256 bytes – leaves in its state register the checksum defined by folding over the block: on the 6502 (EOR src,Y; TAX; LDA table,X; INY; CPY #n; BNE, with the branch measured as this emulator does) after exactly 6n instructions and 17n-1 to 20n-2 cycles, on the CHIP-8 (eleven instructions with state V2 and index V1) after exactly 11n-1 instructions. Nothing but the named registers, I and the N, Z and C flags changes, and no memory is written. With the table of a CRC of eight bits the result is the CRC of the message, as computed bit by bit with a shift register; so both machines get the same value.", "quantifier": "For all tables, blocks, block lengths from 1 to 256, starting states, polynomials, places of code, table and block, buses that behave as memory, both builds, all clocks and random numbers.", "why_tests_cant": "The contents of the table alone can be chosen in 256^256 ways; a test computes one checksum of one message.", "anchors": ["src/cpu/mos6502/operations/mod.rs", "src/cpu/mos6502/mod.rs", "src/cpu/chip8/operations/mod.rs", "src/cpu/chip8/mod.rs"]}
{"id": "C132", "title": "When the order in which devices are registered matters", "statement": "A list of devices with non-empty address ranges can be registered one after the other in an empty address map exactly if every range that overlaps an earlier one strictly encloses it. Hence every order of registering them is accepted exactly if the ranges are pairwise disjoint, and some order is accepted exactly if any two ranges that overlap are strictly nested. The map then holds exactly the devices given. For disjoint ranges the order has no effect on any later read, write or registration; for overlapping ranges there are two devices of which one order is accepted and the other refused.", "quantifier": "For all lists of devices of any length, ranges and contents, all orders in which they are registered, all orders in which the map goes through its entries, both builds.", "why_tests_cant": "There are n! orders of n devices and 2^32 ranges for each; a test registers a few devices in one order.", "anchors": ["src/address_map/mod.rs"]}
{"id": "C133", "title": "What the running time of a 6502 program can depend on", "statement": "Code without branches and without indexed reads takes the documented base cycles of its instructions, whatever the data. In general, two executions that go through the same program counters with the same instructions, whose indexed reads with a page-crossing penalty both do or both do not stay in the page of their base, take the same number of cycles at every instruction; the values of registers, flags and memory have no other effect. The one exception is a conditional branch to the instruction behind it, where the program counter does not tell whether it was taken; with agreement on that too, there is no exception, and without it there are two machines that differ in one flag, go through the same addresses, and take 2 and 3 cycles.", "quantifier": "For all pairs of executions of any length, on any buses and in either build, all programs and data; the witness for the exception is a single instruction.", "why_tests_cant": "That time does not depend on secret data is a statement on all pairs of executions; a test compares a few runs and sees equal or different times, not the reasons.", "anchors": ["src/cpu/mos6502/operations/mod.rs", "src/cpu/mos6502/mod.rs"]}
{"id": "C134", "title": "Programs with loops and arrays run as written on both machines, and the two agree", "statement": "Take any program built from assignments to byte variables, reads and writes of arrays of 256 bytes at a computed index, sequences, conditionals and loops. It is compiled for the CHIP-8 (variables in V1 to VE, an array access is LD I, ADD I, Vi and a transfer of V0) and for the 6502 (variables in the zero page, an access is LDX and an absolute,X load or store; the branch over a jump has the displacement this emulator needs). If the program ends, each emulator gets behind its code after exactly the number of instructions the program costs there, with the program's result in the variables and arrays and everything else unchanged but the scratch registers. If it does not end, the emulator stays inside the code for ever, without a panic and without touching other memory. Started with the same variables and arrays, one emulator gets to the end exactly if the other does, and then the variables and arrays are the same.", "quantifier": "For all programs of any size and nesting that fit in memory, all places for code, variables and arrays that do not overlap, all starting contents, all buses that act as memory there, all clocks and random numbers, both builds, any number of cycles.", "why_tests_cant": "Programs, inputs and array contents are unbounded; a test runs one program on one input on one machine, and cannot show that a loop never ends.", "anchors": ["src/cpu/chip8/mod.rs", "src/cpu/chip8/operations/mod.rs", "src/cpu/mos6502/mod.rs", "src/cpu/mos6502/operations/mod.rs"]}
{"id": "C135", "title": "The same counting sort sorts on both machines", "statement": "A counting sort written once in the language of C134 and compiled for the CHIP-8 and for the 6502 always gets behind its code. Then the first n bytes of the array are those of before in ascending order, each as often as before, the rest of the array is unchanged, and so is all memory but the array, the table of counts and, on the 6502, the five variables. n is the value of a variable, from 0 to 255.", "quantifier": "For all array contents, all n from 0 to 255, all places for code, variables and arrays that do not overlap, all buses that act as memory there, all clocks and random numbers, both builds.", "why_tests_cant": "There are 256^255 arrays; a test sorts a few.", "anchors": ["src/cpu/chip8/mod.rs", "src/cpu/chip8/operations/mod.rs", "src/cpu/mos6502/mod.rs", "src/cpu/mos6502/operations/mod.rs"]}
{"id": "C136", "title": "Input that all clones of a bus share is lost only where a run ends within an instruction", "statement": "It would be expected that devices shared between the clones of the bus (a keyboard or port behind Rc<RefCell<..>>, alone or in one map with the machine's own memory) are after a run as its completed instructions have left them, so that the next run goes on from there. On the 6502 this does not hold: run(1), run(2) or run(3) in front of LDA 0x300 takes a byte from the port which the program never gets, and a host that drives the CPU so loses all of its input. What holds, for all such devices, whatever reading them does: a run is a number k of cycles of complete instructions and, if cycles are left, all calls of the one instruction that does not fit, of which only its effect on the devices remains; a run that ends with an instruction, followed by a run of n cycles, is one run of k + n cycles, in registers, memory, panics and everything that happens to the devices. On the CHIP-8, where each cycle is an instruction, any two runs can be joined so (if the clock stands still within a step).", "quantifier": "For all devices whose own part is changed by writes only (and by an accepted write always in the same way) while the shared part may change in any way with every call, all maps and combinations of such devices, all registers and programs, all numbers of cycles, both CPUs, both builds.", "why_tests_cant": "Devices and their reactions are arbitrary code; a test has one device, and would have to end its runs within an instruction and count what the device has handed out.", "anchors": ["src/cpu/mos6502/mod.rs", "src/cpu/chip8/mod.rs", "src/address_map/mod.rs"]}
{"id": "C137", "title": "How long a program has to run to show whether it ever panics", "statement": "A panic is final: a longer run of the same program ends in the same panic. There is a computable length of run that decides: on an address map with r bytes of RAM (and ROM of any size) a 6502 program that ever panics does so, with the same panic, within 7 * 2^56 * 256^r cycles; if it has not panicked by then it has gone through a whole loop, prefix included, and repeats that loop forever. So whether a program ever panics is decidable by running it. With no RAM the bound is 7 * 2^56. The same holds of a CHIP-8 program within as many instructions as the machine has states, if none of these instructions asks the clock or the generator, or in a world in which both always answer the same. The bound cannot be improved but for a constant factor: for every r from 1 to 7281 there is a 6502 program in ROM, with r bytes of RAM, that panics whatever its registers are at the start, but not within 9 * 256^r cycles; for every r from 1 to 314 there is a CHIP-8 program in ROM, with r bytes of RAM, that panics in every world, but not within 5 * 256^r instructions.", "quantifier": "every build, every 6502 or CHIP-8 state, every bus with finitely many states (64K of RAM; every address map of RAM and ROM segments), every number of cycles or instructions, every world", "why_tests_cant": "The bound is astronomically large; no test can run a program for so long, and no sample of runs shows that a program never panics.", "anchors": ["src/cpu/mod.rs", "src/cpu/mos6502/mod.rs", "src/cpu/chip8/mod.rs", "src/address_map/mod.rs", "src/address_map/memory.rs"]}
{"id": "C138", "title": "Programs that talk to other devices take every byte once and give every byte twice", "statement": "On a machine of which one address is a port to take bytes from and one a port to give bytes to, with anything behind the ports that all clones of the bus share, a run of whole instructions does to registers and memory what the instructions do on plain memory that holds, at the port, the next byte; each instruction that reads the port takes one byte. Expected is that each store to the other port gives one byte. In fact every instruction gives what it stores there twice, so a program that prints a line prints every byte twice. Where giving bytes again changes nothing (a lamp that shows the last byte) the expected holds. Examples for all inputs: a 6502 program of 21 cycles per byte that prints the table-driven checksum of what it has read so far (any table, any place in memory, any starting value, any number of bytes) prints each checksum twice, and a lamp shows the CRC of the message; a CHIP-8 program that echoes its input doubles it.", "quantifier": "every build, every device behind the ports, every state, memory and placement of the ports, every sequence of instructions that read the port at most once each, every input of any length", "why_tests_cant": "A test has a fixed input and a fixed device; the claim is for programs of any length that talk to a device in any state, and for all inputs.", "anchors": ["src/cpu/mod.rs", "src/cpu/mos6502/mod.rs", "src/cpu/chip8/mod.rs", "src/address_map/mod.rs"]}
{"id": "C139", "title": "A device that panics ends a run at that call, and watchpoints see exactly the first access", "statement": "When a run of either CPU panics, on any devices, there are two cases. Either the CPU panics by itself, after exactly the calls of C102/C104, all answered. Or a device panics: the calls before it are a beginning of the calls of a run, all answered, the call that fails is the next call of such a run whatever it would have been answered, and no call is made after it, so that what clones share stays as the failing device left it. The CPU's own bus is read in neither case. In particular, putting a watchpoint (a device that panics when one of a set of addresses is called, and passes on all else) in front of any device does not change a run that never calls these addresses; and otherwise the run panics with the watchpoint's panic at the first such call, exactly the calls before having taken effect.", "quantifier": "every build, every device (also those that panic, are shared, or change when read), every state of the CPU and of the devices, every number of cycles or instructions, every set of watched addresses and every panic", "why_tests_cant": "A test panics with one device at one point; the claim is about every device, every point at which it can fail, and everything called before and not after.", "anchors": ["src/cpu/mos6502/mod.rs", "src/cpu/chip8/mod.rs", "src/address_map/mod.rs", "src/cpu/mod.rs"]}
{"id": "C140", "title": "Save states: a 6502 machine can be read out, rebuilt and resumed without a trace", "statement": "On a bus of RAM and ROM segments, take any plan of segments that covers the same addresses with the same kinds of memory, each range in order and no two overlapping (not necessarily the segments the machine was built from). Saving the machine (its registers, its status as a byte, and the bytes read over the bus for each range of the plan) never fails. Rebuilding it (new segments loaded with these bytes and registered in any hash order the map ends up in, registers set, status decoded) never fails. The rebuilt machine has the same registers and answers like the old one; every run of it for any number of cycles ends in the same panic or in the same registers with buses that answer alike; and saving it again gives the same save. This also holds for the machine at the end of any run, with the same plan. Plans with overlapping ranges do not work: register accepts a range around an existing one but not the two in the other order.", "quantifier": "every build, every history of registrations and stores, every hash order, every register contents, every sound plan with the same map of kinds, every number of cycles before and after", "why_tests_cant": "A test saves one machine once; the claim is about every memory map, every contents, every division of the addresses into segments and every continuation.", "anchors": ["src/cpu/mos6502/mod.rs", "src/cpu/mos6502/register.rs", "src/address_map/mod.rs", "src/address_map/memory.rs"]}
{"id": "C141", "title": "Pieces of code that do the same can be exchanged in any 6502 or CHIP-8 program", "statement": "Two pieces of code at the same addresses do the same work if, entered at the same place in states that differ in nothing but the piece, both are left again without a panic, in states that differ in nothing but the piece. Take two programs that differ in such a piece only. For every execution of the one that ends outside the piece and whose other instructions do not look at the bytes of the piece, do not store into it and jump to it at its beginning only, there is an execution of the other that executes the same instructions outside the piece, in the same order, and ends in a state that differs in nothing but the piece; so whatever one has computed after some number of cycles, the other has computed after some number of cycles too. For example CLC; ROL A and ASL A; NOP do the same work, and behind STA z, LDA z and ORA #0 do. Entering the piece in its middle is not allowed: the programs can differ then. On the CHIP-8, where the clock and the random numbers differ from step to step, the instructions outside the piece are the same in the same worlds; there ADD Vx, k; ADD Vx, j and ADD Vx, k + j; SYS a are such a pair.", "quantifier": "every two programs, every piece of any length and with any code inside (loops included), every number of passages through it, every execution of any length, every state, every two buses that behave like memory, both builds; on the CHIP-8 also every random number and every clock reading at every step", "why_tests_cant": "A test compares one pair of programs on one input; the claim is about every context a piece of code can stand in and any number of passages through it.", "anchors": ["src/cpu/mos6502/mod.rs", "src/cpu/mos6502/microcode.rs", "src/cpu/mos6502/operations/mod.rs", "src/address_map/mod.rs", "src/cpu/chip8/mod.rs", "src/cpu/chip8/microcode.rs", "src/cpu/chip8/operations/mod.rs"]}
{"id": "C142", "title": "Through its public interface a CHIP-8 cannot be given a program", "statement": "Take everything a user of the library can do with CHIP-8s: create and reset them, clone them, call the builder methods with any arguments, run them, run them through StepState, take their iterators a number of instructions further and make CPUs of these, and execute the microcode that an iterator emitted on any of them, all in any order. Then every byte of the memory of each of them still reads 0, an iterator emits nothing but the move of pc by 2, and a run of n instructions moves pc by 2n modulo 65536 and changes nothing else: no register, timer, pixel, stack cell or key. All that is found in such a CPU is what the last builder calls put there, and pc is the last one set plus twice the number of instructions since. No run panics, except with overflow checks from an odd pc when it gets to 0xffff. (There is no method that writes memory or takes a bus, and the fields are private; only the tests of the crate itself can load a program.)", "quantifier": "every sequence of calls of any length with any arguments, any number of CPUs with generators of any types, every world at every step, every order of the bus's hash table, both builds", "why_tests_cant": "A test of the public interface can try some calls; that no combination of them ever loads a byte is a statement about all sequences. The crate's tests do not see it because they are inside the crate and write to the private field.", "anchors": ["src/cpu/chip8/mod.rs", "src/cpu/chip8/microcode.rs", "src/cpu/mod.rs"]}
{"id": "C143", "title": "Programs with arrays take a computable number of 6502 cycles; the counting sort has a formula", "statement": "For the structured programs with byte variables and arrays of C134: a program that ends has exactly one running time at each address, the sum of the documented cycles of its instructions (one more for a read of an element in another page than the array's beginning, none for a write; one more for a taken branch to another page). run with exactly this number of cycles ends exactly behind the code with the result; as long as the executed instructions take less, the emulator is inside the code. For the counting sort of C135 the time is 8238 + 105 n + 42 m cycles for n values with m - 1 the largest of them (m = 0 if n = 0), if code and arrays cross no page; in general it is a formula of the values and the addresses, between this and 8493 + 109 n + 44 m.", "quantifier": "every program of the language, all array contents and values of variables, all places for code, variables and arrays that do not overlap, all buses that act as memory there, both builds; for the sort every n from 0 to 255 and all values", "why_tests_cant": "A test can measure the time for one array at one address; the formula is about all values and all places, with page crossings that depend on both.", "anchors": ["src/cpu/mos6502/mod.rs", "src/cpu/mos6502/operations/mod.rs"]}
{"id": "C144", "title": "How many instructions the counting sort takes on the two machines does not depend on the order of the values", "statement": "The counting sort compiled for the CHIP-8 gets behind its code, with the values sorted, after exactly 1801 + 24 n + 9 m steps, where n is the number of values and m is one more than the largest of them (0 if there is none); `run` with fewer steps leaves the machine inside the code. On the 6502 the same program executes exactly 2834 + 36 n + 15 m instructions, in exactly the cycles of C143. None of the three numbers depends on the order of the values, wherever code and arrays lie, and a 6502 instruction of the sort takes between 2.8 and 3.03 cycles on average.", "quantifier": "every number of values from 0 to 255 and every content of the arrays, every placement of code, variables and arrays, every bus that keeps the arrays, every source of randomness, both builds", "why_tests_cant": "A test sorts a few lists at one place and compares a step count with a constant; that the count is a linear function of the length and the largest value and independent of the order is a statement about all lists, with nested loops whose lengths depend on the data.", "anchors": ["src/cpu/chip8/mod.rs", "src/cpu/mos6502/mod.rs", "src/cpu/mod.rs"]}
{"id": "C145", "title": "Programs with gotos run as drawn on both machines, and the two agree", "statement": "Take any flow chart: numbered blocks of assignments, array reads and array writes, each of which ends by going to a block or to one of two blocks depending on a condition; loops may be entered and left anywhere. Assembled block after block for the CHIP-8 and for the 6502, it is followed exactly: whenever the chart gets to a block (or to its end) by n instructions, the emulator is then, after n instructions, at the beginning of the code of that block, with the chart's variables and arrays and everything else unchanged but the scratch registers. A chart that does not end keeps the emulator inside its code for ever, without a panic and without touching other memory. The emulator gets behind the code exactly if the chart ends, and of two emulators started with the same variables and arrays one gets there exactly if the other does, with the same result.", "quantifier": "For all charts of any size that fit in memory, all places for code, variables and arrays that do not overlap, all starting contents, all buses that act as memory there, all clocks and random numbers, both builds, any number of cycles.", "why_tests_cant": "Tests of jumps execute one jump from one place. That jumps forwards and backwards between arbitrary blocks compose to the control flow that was drawn, for as long as it goes on, is a statement about all charts and unbounded executions.", "anchors": ["src/cpu/chip8/mod.rs", "src/cpu/mos6502/mod.rs", "src/cpu/mod.rs"]}
{"id": "C146", "title": "A text is copied up to its end on both machines, in a known number of instructions", "statement": "A flow chart copies the bytes of one array to another until it has copied a zero or all 256. On either machine the assembled chart ends; then the destination has the bytes of the source up to and including the first zero and its old bytes behind, and the source and all other memory but the variables is unchanged. With the first zero at index z the CHIP-8 takes exactly 13 z + 12 instructions and the 6502 exactly 18 z + 13; without a zero they take 3330 and 4611.", "quantifier": "For all contents of the two arrays, all places for code, variables and arrays that do not overlap, all buses that act as memory there, all clocks and random numbers, both builds.", "why_tests_cant": "A test copies a few texts. That the copy stops at the first zero wherever it is, also if there is none and the index wraps round, and touches nothing behind it, is a statement about all contents.", "anchors": ["src/cpu/chip8/mod.rs", "src/cpu/mos6502/mod.rs", "src/cpu/mod.rs"]}
{"id": "C147", "title": "How long a program with gotos takes on the 6502, with a formula for copying a text", "statement": "If a flow chart gets to a block, or to its end, the 6502 is there after exactly the cycles that its actions, tests and jumps take: `run` with that number of cycles ends exactly at the beginning of that block's code, with the chart's variables and arrays. As long as the executed instructions take less, the emulator is inside the code. A chart that ends has exactly one such time. Copying a text whose first zero is at index z takes exactly 40 + 51 z cycles, one more for each byte read from the page behind the one the source begins in, and one more if the last branch leads to another page; without a zero it takes 13065 and the cycles for other pages.", "quantifier": "For all charts of any size that fit in memory, all places for code, variables and arrays that do not overlap, all starting contents, all buses that act as memory there, both builds.", "why_tests_cant": "A test adds up the cycles of one run. That the time is a function of where code and arrays lie and of the data, for every chart and every text, and that `run` stops exactly at the end with that number of cycles, is a statement about all of them.", "anchors": ["src/cpu/mos6502/mod.rs", "src/cpu/mos6502/operations/mod.rs", "src/cpu/mod.rs"]}
{"id": "C148", "title": "Every finite automaton runs on both machines", "statement": "Every finite automaton over bytes can be assembled for the CHIP-8 and for the 6502: the code reads a word from memory up to a zero and ends, and then a register of the CHIP-8, or a byte in the zero page of the 6502, is 1 if the automaton accepts the word and 0 if it does not. The rest of the memory is unchanged. The code has 12 bytes, 18 for each state and 6 for each transition on the CHIP-8, and 21, 29 and 12 on the 6502, so it is known which automata fit.", "quantifier": "For all automata with any number of states and transitions that fit in memory, all words of up to 255 non-zero bytes, all places for code, variables and word that do not overlap, all buses that act as memory there, all clocks and random numbers, both builds.", "why_tests_cant": "A test runs one automaton on a few words. Here program and input are both arbitrary: for every automaton the emulated code must decide exactly its language.", "anchors": ["src/cpu/chip8/mod.rs", "src/cpu/mos6502/mod.rs", "src/cpu/mod.rs"]}
{"id": "C149", "title": "A program that prints a text on the example's adapter prints exactly the text", "statement": "Take a 6502 system with the adapter of the peripheral example on its bus and any other memories and adapters, readable at every address, elsewhere, with the usual loop for printing a text ended by a zero in memory. Run for the stated number of cycles, the loop ends, the adapter has printed exactly the bytes of the text in order, and every other device on the bus is as it was. On any bus that shows the program and the text and takes bytes at the port, the loop stores those bytes there and makes no other store. It takes 5 instructions and 15 cycles for each byte, one cycle more for each byte in another page than the first, and 3 instructions and 9 cycles around them, with a cycle each if the zero or the end of the program lies in another page. A text with no zero in its first 256 bytes never ends: those 256 bytes are printed over and over.", "quantifier": "For all texts of up to 255 non-zero bytes, all places of program, text and adapter, all other memories and adapters in any number and iteration order, all registers and flags before it, both builds; for all lengths of run in the endless case.", "why_tests_cant": "A test prints one text from one place. Page crossings, wrapped indexes and other devices on the bus change times and stores only for some places, and the endless case has no last step to check.", "anchors": ["examples/custom_peripheral_addr_space.rs", "src/cpu/mos6502/mod.rs", "src/address_map/mod.rs"]}
{"id": "C150", "title": "Every Turing machine on a ring of 256 cells runs on both machines", "statement": "Every Turing machine with bytes as symbols, on a tape of 256 cells closed to a ring, can be assembled for the CHIP-8 and for the 6502. Whatever configuration the Turing machine gets to, the emulator gets to it too: it is then at the code of that state, the tape is in memory and the head in a register of the CHIP-8 or a byte of the zero page of the 6502, and memory outside is unchanged. If the Turing machine halts, the emulator gets behind the code with the final tape and head; if it does not halt, the emulator never gets there. The code has 12 bytes for each state and 20 for each rule on the CHIP-8, and 13 and 33 on the 6502, so it is known which machines fit.", "quantifier": "For all Turing machines with any number of states and rules that fit in memory, all tapes and places of the head, all numbers of steps, all places for code, variables and tape that do not overlap, all buses that act as memory there, all clocks and random numbers, both builds.", "why_tests_cant": "A test runs one machine for some steps. Here the machine and the tape are arbitrary, and that a run never ends cannot be seen by running it.", "anchors": ["src/cpu/chip8/mod.rs", "src/cpu/mos6502/mod.rs", "src/cpu/mod.rs"]}
{"id": "C151", "title": "The exact running time of every Turing machine on a ring, on both machines", "statement": "For every Turing machine on a ring of 256 cells and every tape, the time of its first k steps is known exactly. On the CHIP-8 a step takes 14 instructions and two more for each rule that is tried in vain. On the 6502 it takes 53 cycles and ten more for each rule tried in vain, one more if the symbol lies in another page than the beginning of the tape and one more if the branch of the test that succeeds leads to another page. A machine that halts takes the sum and the time to find that no rule applies: after exactly that time the emulator is behind the code, with the final tape and head, and after less it is still inside. So a step takes at least 14 instructions or 53 cycles, and at most 12 + 2 r or 45 + 10 r if no state has more than r rules.", "quantifier": "For all Turing machines with any number of states and rules that fit in memory, all tapes and places of the head, all numbers of steps, all places for code, variables and tape that do not overlap, all buses that act as memory there, all clocks and random numbers, both builds.", "why_tests_cant": "A test measures one machine on one tape at one place. The page crossings depend on the place of the code, on the place of the tape and on the path of the head.", "anchors": ["src/cpu/chip8/mod.rs", "src/cpu/mos6502/mod.rs", "src/cpu/mos6502/operations/mod.rs", "src/cpu/mod.rs"]}
{"id": "C152", "title": "A CHIP-8 run can be recorded as microcode and replayed at any time", "statement": "A caller that takes n items from the iterator of a CHIP-8 records n instructions, one item each, every item ending with the step of the program counter over its instruction. Recording panics exactly when run(n) panics, with the same panic. Replaying the recorded microcode on the CPU the recording started from never panics, whatever the clock says during the replay, and ends in the state the iterator is in, up to the instants at which the timers were written: random numbers, keys and timer readings are those of the recording. A timer that the recording does not set keeps value and instant; one that it sets has the last value set and counts from the moment the replay set it. run(n) is itself such a replay, at instants at which it executes microcode. A recording, unlike a run (C59), can be stopped anywhere, the iterator turned into a CPU and a new iterator made of it, with the same items and the same last state. A replay stopped after m instructions is in the state of the recorded machine after m. Leaving out the microcode that draws gives the same state with the display the CPU had before, and following only the microcode that draws, on any machine that had the same display before, gives the recorded display and touches nothing else.", "quantifier": "For every bus, state, build, behaviour of the clock, the random numbers and the keys, every number of instructions, every place to split and every sequence of instants for the replay.", "why_tests_cant": "Tests execute single microcodes; the emulator has no test that collects the items of the iterator, and the two executions of a timer write happen at two moments a test cannot choose.", "anchors": ["src/cpu/chip8/mod.rs:293-365", "src/cpu/chip8/mod.rs:369-419", "src/cpu/chip8/mod.rs:304-324"]}
{"id": "C153", "title": "The exact running time of every finite automaton, on both machines", "statement": "For every finite automaton over bytes and every word the time to decide it is known exactly. The CHIP-8 takes 11 instructions, and for each byte nine if the first case of the state is for it, two more for each case compared in vain, and one less if no case is for it. The 6502 takes 47 cycles, and for each byte 41 and ten more for each case compared in vain, eight less if no case is for it, one more for each byte read from another page and one for each branch taken to another page. In a state that there is not, the automaton stops at once. After exactly that time the emulator is behind the code with the answer and the word unchanged, and after less it is still inside. So the time is linear in the length of the word: at most 8 + 2 r instructions or 34 + 10 r cycles for each byte if no state has more than r cases, and at least 8 instructions or 33 cycles if all states are there.", "quantifier": "For all automata with any number of states and cases that fit in memory, all words of up to 255 bytes without a zero, all places for code, variables and word that do not overlap, all buses that act as memory there, all clocks and random numbers, both builds.", "why_tests_cant": "A test measures one automaton on one word at one place; the page crossings depend on the place of the code and of the word.", "anchors": ["src/cpu/chip8/mod.rs", "src/cpu/mos6502/mod.rs", "src/cpu/mos6502/operations/mod.rs", "src/cpu/mod.rs"]}
{"id": "C154", "title": "Running in slices executes the same instructions, at most six cycles behind per slice", "statement": "A front end that calls run(n1), run(n2), … on a 6502, each on the result of the last, executes whole instructions of the program in their order, exactly as one run of some smaller number of cycles would: at least n/7 and at most n/2 instructions per slice of n cycles, losing at most 6 cycles per slice. If the sliced run panics, so does one run of n1 + n2 + … cycles, in the same way; if that run does not panic, it is ahead of the sliced one by instructions of at most 6 cycles per slice. With slices of 7 cycles or more every state that a run reaches is passed; with slices shorter than the next instruction the machine never moves. The wait after a reset is taken out of the first slice only. On the CHIP-8 nothing is lost: where the clock does not move within an instruction, running in slices is one run of the sum. However the clock moves, the sliced CHIP-8 run is one run in a world with the same random bytes and timer writes, whose delay timer is read later by at most what the clock moves between the two executions of an instruction.", "quantifier": "every program, bus and CPU state, every list of slices of any sizes, both build modes", "why_tests_cant": "All programs and all ways to cut a run into any number of slices; whether the lost cycles add up and on which path cannot be seen from single runs.", "anchors": ["src/cpu/mod.rs: Cpu::run, StepState::run", "src/cpu/mos6502/mod.rs: Mos6502::run", "src/cpu/chip8/mod.rs: Chip8::run"]}
{"id": "C155", "title": "A program that waits for a key notices it, frame by frame", "statement": "The instruction Fx0A does not wait (C55); the loop SKP Vx; JP back does. Under a front end that before each frame says which key is held down (with_interrupt) and then calls run with any number of instructions: as long as no frame has the key with the number in Vx, the program stays in the loop, at the instruction that follows from the number of instructions, and nothing else changes. The first frame of at least two instructions with that key leaves the loop, after one instruction or after two if the jump was next, and the rest of the frame runs from behind the loop. A frame of a single instruction misses the key if the jump is next.", "quantifier": "every register but VF and every value in it, every place of the loop in the 4K, every list of frames of any lengths with any keys, every clock, every bus that behaves like memory, both builds", "why_tests_cant": "All schedules of frames and key presses, of any length.", "anchors": ["src/cpu/chip8/mod.rs: Chip8::with_interrupt, Chip8::run", "src/cpu/chip8/operations/mod.rs: Skp, Jp"]}
{"id": "C156", "title": "A 6502 program that waits for a byte from outside notices it, frame by frame", "statement": "The loop LDA mailbox; BEQ back (with the displacement the code needs, C26) runs under a front end that before each frame writes a byte to the mailbox (with_address_map_mut) and then calls run with any number of cycles. As long as these bytes are zero the program stays in the loop: no panic, and only A, N, Z, the program counter and the mailbox can have changed. The first other byte, in a frame of at least 9 cycles (10 if the loop straddles a page), makes the program leave the loop in that frame with the byte in A, and the rest of the frame runs from behind the loop. One cycle less is not enough for a program that has just read zero. With frames of fewer than 4 cycles the program never gets anywhere, because run carries no cycles over.", "quantifier": "every place of the loop and of the mailbox apart from it, every list of frames of any lengths, every byte, all register values, every bus that behaves like memory at the mailbox, both builds", "why_tests_cant": "All schedules of frames and bytes, of any length, and every place in memory.", "anchors": ["src/cpu/mos6502/mod.rs: Mos6502::with_address_map_mut, Mos6502::run", "src/cpu/mos6502/operations/mod.rs: LDA absolute, BEQ"]}

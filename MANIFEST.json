{
 "claims": [
  {
   "property": "C01",
   "status": "proved",
   "theorems": [
    "Verif.Props.C01_read_is_flat_memory",
    "Verif.Props.C01_write_is_flat_memory",
    "Verif.Props.C01_last_write_wins"
   ],
   "note": "Refinement of the hash-map bus to an abstract flat bus over all histories of registrations, rehashings and writes."
  },
  {
   "property": "C02",
   "status": "proved",
   "theorems": [
    "Verif.Props.C02_unmapped",
    "Verif.Props.C02_write_isolation"
   ],
   "note": ""
  },
  {
   "property": "C03",
   "status": "proved",
   "theorems": [
    "Verif.Props.C03_rom_is_immutable"
   ],
   "note": ""
  },
  {
   "property": "C04",
   "status": "partial",
   "theorems": [
    "Verif.Props.C04_overlap_accepted",
    "Verif.Props.C04_partial",
    "Verif.Props.C04_accepted_iff_partial",
    "Verif.Props.C04_disjoint_partial"
   ],
   "note": "False of the code: a range that strictly encloses a registered one is accepted (C04_overlap_accepted). Proved instead: that is the only accepted kind of overlap, and without it every address has at most one device."
  },
  {
   "property": "C05",
   "status": "proved",
   "theorems": [
    "Verif.Props.C05_refused_iff",
    "Verif.Props.C05_registration_frame",
    "Verif.Props.C05_registration_ops"
   ],
   "note": ""
  },
  {
   "property": "C06",
   "status": "proved",
   "theorems": [
    "Verif.Props.C06_order_irrelevant",
    "Verif.Props.C06_order_matters_when_overlapping"
   ],
   "note": "For disjoint ranges; C06_order_matters_when_overlapping shows the condition is needed (see C04)."
  },
  {
   "property": "C07",
   "status": "proved",
   "theorems": [
    "Verif.Props.C07_new_dump",
    "Verif.Props.C07_new_reversed",
    "Verif.Props.C07_load_dump",
    "Verif.Props.C07_read_loaded",
    "Verif.Props.C07_write_dump",
    "Verif.Props.C07_read_below",
    "Verif.Props.C07_no_panic_in_range",
    "Verif.Props.C07_doc_example_panics"
   ],
   "note": "Includes the exact panic conditions of Memory::new, read and write."
  },
  {
   "property": "C08",
   "status": "proved",
   "theorems": [
    "Verif.Props.C08_page_contains",
    "Verif.Props.C08_page_of_byte",
    "Verif.Props.C08_pages_partition"
   ],
   "note": ""
  },
  {
   "property": "C09",
   "status": "proved",
   "theorems": [
    "Verif.Props.C09_ready_after",
    "Verif.Props.C09_cpu_unaltered",
    "Verif.Props.C09_run_after_wait",
    "Verif.Props.C09_pair_counts"
   ],
   "note": ""
  },
  {
   "property": "C10",
   "status": "partial",
   "theorems": [
    "Verif.Props.C10_wait_forgotten",
    "Verif.Props.C10_partial"
   ],
   "note": "False of the code: a run that ends inside the wait drops the rest of it (C10_wait_forgotten); C10_partial gives the exact behaviour."
  },
  {
   "property": "C11",
   "status": "proved",
   "theorems": [
    "Verif.Props.C11_byte_round_trip",
    "Verif.Props.C11_flags_round_trip",
    "Verif.Props.C11_layout",
    "Verif.Props.C11_bijection"
   ],
   "note": ""
  },
  {
   "property": "C12",
   "status": "proved",
   "theorems": [
    "Verif.Props.C12_run_ok",
    "Verif.Props.C12_run_eq",
    "Verif.Props.C12_panic"
   ],
   "note": "Exact: result, maximality among all instruction sequences that fit, converse, and panic condition."
  },
  {
   "property": "C13",
   "status": "partial",
   "theorems": [
    "Verif.Props.C13_split_wrong",
    "Verif.Props.C13_partial",
    "Verif.Props.C13_split_iff_partial"
   ],
   "note": "False of the code: the cycles of an unfinished instruction are lost (C13_split_wrong). C13_partial gives the exact result of the split and the condition under which it is faithful. Exactly when a run can be split after m cycles (C13_split_iff_partial): if they end with an instruction, or if the machine hangs in an instruction that leaves it as it is. Any number of splits: C154."
  },
  {
   "property": "C14",
   "status": "proved",
   "theorems": [
    "Verif.Props.C14_replay_is_run",
    "Verif.Props.C14_capture_panics",
    "Verif.Props.C14_iterator_state"
   ],
   "note": "capture/replay model examples/microcode_step_capture.rs."
  },
  {
   "property": "C15",
   "status": "proved",
   "theorems": [
    "Verif.Props.C15_pc_advances",
    "Verif.Props.C15_length"
   ],
   "note": ""
  },
  {
   "property": "C16",
   "status": "proved",
   "theorems": [
    "Verif.Props.C16_registers",
    "Verif.Props.C16_flags",
    "Verif.Props.C16_unused_bit",
    "Verif.Props.C16_writes"
   ],
   "note": ""
  },
  {
   "property": "C17",
   "status": "proved",
   "theorems": [
    "Verif.Props.C17_lda",
    "Verif.Props.C17_ldx",
    "Verif.Props.C17_ldy"
   ],
   "note": "For every device as bus. In a build with overflow checks the states in which the address arithmetic itself overflows panic (C36) and are excluded by the hypothesis AddrOk."
  },
  {
   "property": "C18",
   "status": "proved",
   "theorems": [
    "Verif.Props.C18_sta",
    "Verif.Props.C18_stx",
    "Verif.Props.C18_sty"
   ],
   "note": "For every device as bus. In a build with overflow checks the states in which the address arithmetic itself overflows panic (C36) and are excluded by the hypothesis AddrOk."
  },
  {
   "property": "C19",
   "status": "proved",
   "theorems": [
    "Verif.Props.C19_tax",
    "Verif.Props.C19_tay",
    "Verif.Props.C19_txa",
    "Verif.Props.C19_tya",
    "Verif.Props.C19_tsx",
    "Verif.Props.C19_txs"
   ],
   "note": ""
  },
  {
   "property": "C20",
   "status": "proved",
   "theorems": [
    "Verif.Props.C20_and",
    "Verif.Props.C20_ora",
    "Verif.Props.C20_eor",
    "Verif.Props.C20_bit"
   ],
   "note": "For every device as bus. In a build with overflow checks the states in which the address arithmetic itself overflows panic (C36) and are excluded by the hypothesis AddrOk."
  },
  {
   "property": "C21",
   "status": "proved",
   "theorems": [
    "Verif.Props.C21_accumulator",
    "Verif.Props.C21_memory",
    "Verif.Props.C21_rol_bits",
    "Verif.Props.C21_ror_bits",
    "Verif.Props.C21_asl_lsr_bits",
    "Verif.Props.C21_inverse",
    "Verif.Props.C21_rol_ror_step"
   ],
   "note": "For every device as bus. In a build with overflow checks the states in which the address arithmetic itself overflows panic (C36) and are excluded by the hypothesis AddrOk."
  },
  {
   "property": "C22",
   "status": "partial",
   "theorems": [
    "Verif.Props.C22_inc",
    "Verif.Props.C22_dec",
    "Verif.Props.C22_inx",
    "Verif.Props.C22_iny",
    "Verif.Props.C22_dex",
    "Verif.Props.C22_dey_wrong",
    "Verif.Props.C22_dey_partial"
   ],
   "note": "INC, DEC, INX, INY, DEX proved; false of DEY, whose flags come from X - 1 (C22_dey_wrong); C22_dey_partial gives its exact effect. In a build with overflow checks the states in which the address arithmetic itself overflows panic (C36) and are excluded by the hypothesis AddrOk."
  },
  {
   "property": "C23",
   "status": "partial",
   "theorems": [
    "Verif.Props.C23_carry_ignored",
    "Verif.Props.C23_overflow_wrong",
    "Verif.Props.C23_partial"
   ],
   "note": "False of the code: the carry is not added and V is wrong (C23_carry_ignored, C23_overflow_wrong). C23_partial gives the exact effect and exactly when it is the documented one."
  },
  {
   "property": "C24",
   "status": "partial",
   "theorems": [
    "Verif.Props.C24_carry_wrong",
    "Verif.Props.C24_overflow_wrong",
    "Verif.Props.C24_partial"
   ],
   "note": "False of the code: C after operand 0 with carry, and V (C24_carry_wrong, C24_overflow_wrong). C24_partial gives the exact effect and exactly when it is the documented one."
  },
  {
   "property": "C25",
   "status": "partial",
   "theorems": [
    "Verif.Props.C25_carry_wrong",
    "Verif.Props.C25_partial"
   ],
   "note": "False of the code when one number is 0 and the other in 1..127 (C25_carry_wrong); C25_partial is exact."
  },
  {
   "property": "C26",
   "status": "partial",
   "theorems": [
    "Verif.Props.C26_target_wrong",
    "Verif.Props.C26_partial"
   ],
   "note": "False of the code: taken branches land 2 bytes short (C26_target_wrong); C26_partial is exact."
  },
  {
   "property": "C27",
   "status": "proved",
   "theorems": [
    "Verif.Props.C27_call_return"
   ],
   "note": "Over any execution that uses the stack as a stack, any nesting depth that fits the page."
  },
  {
   "property": "C28",
   "status": "proved",
   "theorems": [
    "Verif.Props.C28_pla",
    "Verif.Props.C28_plp",
    "Verif.Props.C28_pha_pla",
    "Verif.Props.C28_php_plp",
    "Verif.Props.C28_push"
   ],
   "note": ""
  },
  {
   "property": "C29",
   "status": "partial",
   "theorems": [
    "Verif.Props.C29_resumes_wrong",
    "Verif.Props.C29_partial"
   ],
   "note": "False of the code: BRK pushes the return address bytes in the wrong order (C29_resumes_wrong); C29_partial proves flags and stack pointer and the exact address."
  },
  {
   "property": "C30",
   "status": "partial",
   "theorems": [
    "Verif.Props.C30_as_absolute",
    "Verif.Props.C30_zero_page_x",
    "Verif.Props.C30_zero_page_y",
    "Verif.Props.C30_absolute_x",
    "Verif.Props.C30_absolute_y",
    "Verif.Props.C30_indexed_indirect_panics",
    "Verif.Props.C30_indirect_indexed_panics",
    "Verif.Props.C30_indexed_indirect_partial",
    "Verif.Props.C30_indirect_indexed_partial"
   ],
   "note": "Every mode proved; (zp,X) with X = 255 and (zp),Y past 0xffff panic in a build with overflow checks (C30_*_panics), the _partial theorems cover all other states."
  },
  {
   "property": "C31",
   "status": "partial",
   "theorems": [
    "Verif.Props.C31_indirect_indexed_wrong",
    "Verif.Props.C31_branch_wrong",
    "Verif.Props.C31_partial"
   ],
   "note": "False of the code for reads through (zp),Y and taken branches (C31_indirect_indexed_wrong, C31_branch_wrong); C31_partial proves the rest and the exact counts of these two."
  },
  {
   "property": "C32",
   "status": "proved",
   "theorems": [
    "Verif.Props.C32_jmp_absolute",
    "Verif.Props.C32_jmp_indirect",
    "Verif.Props.C32_modes"
   ],
   "note": "JMP (0xffff) overflows in a build with overflow checks (C36) and is excluded there."
  },
  {
   "property": "C33",
   "status": "proved",
   "theorems": [
    "Verif.Props.C33_flags"
   ],
   "note": ""
  },
  {
   "property": "C34",
   "status": "proved",
   "theorems": [
    "Verif.Props.C34_reset",
    "Verif.Props.C34_status",
    "Verif.Props.C34_run_after_reset",
    "Verif.Props.C34_panic"
   ],
   "note": ""
  },
  {
   "property": "C35",
   "status": "partial",
   "theorems": [
    "Verif.Props.C35_registers_kept",
    "Verif.Props.C35_partial"
   ],
   "note": "False of the code: A, X and Y are kept (C35_registers_kept); C35_partial is exact."
  },
  {
   "property": "C36",
   "status": "proved",
   "theorems": [
    "Verif.Props.C36_panic_reasons",
    "Verif.Props.C36_panics",
    "Verif.Props.C36_refused",
    "Verif.Props.C36_no_panic",
    "Verif.Props.C36_run_no_panic"
   ],
   "note": "Reasons, converse for the reasons that do not depend on the device, absence of panics for steps and runs."
  },
  {
   "property": "C37",
   "status": "proved",
   "theorems": [
    "Verif.Props.C37_step",
    "Verif.Props.C37_instructions",
    "Verif.Props.C37_run"
   ],
   "note": "One step for arbitrary buses including panicking reads; any number of instructions and runs for buses that behave as memory."
  },
  {
   "property": "C38",
   "status": "proved",
   "theorems": [
    "Verif.Props.C38_demo",
    "Verif.Props.C38_main"
   ],
   "note": "For every iteration order of the hash map and any number of cycles."
  },
  {
   "property": "C39",
   "status": "proved",
   "theorems": [
    "Verif.Chip8.U12.C39_new",
    "Verif.Chip8.U12.C39_nibbles",
    "Verif.Chip8.U12.C39_nibbles_onto",
    "Verif.Chip8.U12.C39_wrapping",
    "Verif.Chip8.U12.C39_inverse",
    "Verif.Chip8.U12.C39_add",
    "Verif.Chip8.U12.C39_sub",
    "Verif.Chip8.U12.C39_bits",
    "Verif.Chip8.U12.C39_shift_unchecked",
    "Verif.Chip8.U12.C39_order"
   ],
   "note": ""
  },
  {
   "property": "C40",
   "status": "proved",
   "theorems": [
    "Verif.Chip8.C40_decode_encode",
    "Verif.Chip8.C40_encode_decode",
    "Verif.Chip8.C40_rejects",
    "Verif.Chip8.C40_unambiguous",
    "Verif.Chip8.C40_fetch"
   ],
   "note": ""
  },
  {
   "property": "C41",
   "status": "proved",
   "theorems": [
    "Verif.Props.Chip8.C41_plain",
    "Verif.Props.Chip8.C41_skip",
    "Verif.Props.Chip8.C41_cover"
   ],
   "note": ""
  },
  {
   "property": "C42",
   "status": "partial",
   "theorems": [
    "Verif.Props.Chip8.C42_call",
    "Verif.Props.Chip8.C42_ret",
    "Verif.Props.Chip8.C42_partial",
    "Verif.Props.Chip8.C42_ret_to_call_itself"
   ],
   "note": "False of the code: RET goes back to the CALL itself (C42_ret_to_call_itself); C42_partial is exact."
  },
  {
   "property": "C43",
   "status": "partial",
   "theorems": [
    "Verif.Props.Chip8.C43_partial",
    "Verif.Props.Chip8.C43_sp_never_moves_partial",
    "Verif.Props.Chip8.C43_sp_does_not_count",
    "Verif.Props.Chip8.C43_second_call_overwrites"
   ],
   "note": "False of the code: the stack pointer never moves (C43_sp_does_not_count, C43_second_call_overwrites); C43_partial says where the returns go."
  },
  {
   "property": "C44",
   "status": "partial",
   "theorems": [
    "Verif.Props.Chip8.C44_always_panics_partial",
    "Verif.Props.Chip8.C44_add_panics",
    "Verif.Props.Chip8.C44_partial"
   ],
   "note": "False of the code: there is no VF, so these instructions always panic (C44_add_panics, C44_always_panics_partial); C44_partial proves the computed values and flags."
  },
  {
   "property": "C45",
   "status": "proved",
   "theorems": [
    "Verif.Props.Chip8.C45_ld_byte",
    "Verif.Props.Chip8.C45_add_byte",
    "Verif.Props.Chip8.C45_ld_reg",
    "Verif.Props.Chip8.C45_or",
    "Verif.Props.Chip8.C45_and",
    "Verif.Props.Chip8.C45_xor",
    "Verif.Props.Chip8.C45_ld_i",
    "Verif.Props.Chip8.C45_add_i",
    "Verif.Props.Chip8.C45_ld_from_delay",
    "Verif.Props.Chip8.C45_ld_delay",
    "Verif.Props.Chip8.C45_ld_sound"
   ],
   "note": ""
  },
  {
   "property": "C46",
   "status": "proved",
   "theorems": [
    "Verif.Props.Chip8.C46_se_byte",
    "Verif.Props.Chip8.C46_sne_byte",
    "Verif.Props.Chip8.C46_se_reg",
    "Verif.Props.Chip8.C46_sne_reg",
    "Verif.Props.Chip8.C46_skp",
    "Verif.Props.Chip8.C46_sknp"
   ],
   "note": ""
  },
  {
   "property": "C47",
   "status": "proved",
   "theorems": [
    "Verif.Props.Chip8.C47_jp",
    "Verif.Props.Chip8.C47_jp_v0"
   ],
   "note": ""
  },
  {
   "property": "C48",
   "status": "proved",
   "theorems": [
    "Verif.Props.Chip8.C48_store",
    "Verif.Props.Chip8.C48_load",
    "Verif.Props.Chip8.C48_round_trip"
   ],
   "note": ""
  },
  {
   "property": "C49",
   "status": "proved",
   "theorems": [
    "Verif.Props.Chip8.C49_digits",
    "Verif.Props.Chip8.C49_bcd",
    "Verif.Props.Chip8.C49_memory"
   ],
   "note": ""
  },
  {
   "property": "C50",
   "status": "proved",
   "theorems": [
    "Verif.Props.Chip8.C50_glyph",
    "Verif.Props.Chip8.C50_too_large"
   ],
   "note": ""
  },
  {
   "property": "C51",
   "status": "proved",
   "theorems": [
    "Verif.Props.Chip8.C51_pixel",
    "Verif.Props.Chip8.C51_write",
    "Verif.Props.Chip8.C51_write_outside",
    "Verif.Props.Chip8.C51_inner",
    "Verif.Props.Chip8.C51_ext",
    "Verif.Props.Chip8.C51_sprite",
    "Verif.Props.Chip8.C51_sprite_outside"
   ],
   "note": ""
  },
  {
   "property": "C52",
   "status": "partial",
   "theorems": [
    "Verif.Props.Chip8.C52_partial",
    "Verif.Props.Chip8.C52_no_false_alarm_partial",
    "Verif.Props.Chip8.C52_missed"
   ],
   "note": "False of the code: the result is the old value of the lower right covered pixel, so other collisions are missed (C52_missed). C52_partial is exact; C52_no_false_alarm_partial: a reported collision is one."
  },
  {
   "property": "C53",
   "status": "proved",
   "theorems": [
    "Verif.Props.Chip8.C53_cls"
   ],
   "note": ""
  },
  {
   "property": "C54",
   "status": "partial",
   "theorems": [
    "Verif.Props.Chip8.C54_always_panics_partial",
    "Verif.Props.Chip8.C54_panics",
    "Verif.Props.Chip8.C54_partial"
   ],
   "note": "False of the code: there is no VF, so drawing always panics (C54_panics, C54_always_panics_partial). C54_partial proves the computed pixels and collision flag."
  },
  {
   "property": "C55",
   "status": "partial",
   "theorems": [
    "Verif.Props.Chip8.C55_partial",
    "Verif.Props.Chip8.C55_does_not_wait"
   ],
   "note": "False of the code: without a key execution goes on (C55_does_not_wait); C55_partial is exact."
  },
  {
   "property": "C56",
   "status": "proved",
   "theorems": [
    "Verif.Props.Chip8.C56_value",
    "Verif.Props.Chip8.C56_every_timer",
    "Verif.Props.Chip8.C56_nonincreasing",
    "Verif.Props.Chip8.C56_one_per_second",
    "Verif.Props.Chip8.C56_program"
   ],
   "note": ""
  },
  {
   "property": "C57",
   "status": "proved",
   "theorems": [
    "Verif.Props.Chip8.C57_rnd",
    "Verif.Props.Chip8.C57_bits",
    "Verif.Props.Chip8.C57_unmasked"
   ],
   "note": ""
  },
  {
   "property": "C58",
   "status": "proved",
   "theorems": [
    "Verif.Props.Chip8.C58_kth",
    "Verif.Props.Chip8.C58_in_order",
    "Verif.Props.Chip8.C58_bound",
    "Verif.Props.Chip8.C58_never_panics",
    "Verif.Props.Chip8.C58_no_deadlock",
    "Verif.Props.Chip8.C58_answered",
    "Verif.Props.Chip8.C58_fills",
    "Verif.Props.Chip8.C58_default",
    "Verif.Props.Chip8.C58_thread_ends"
   ],
   "note": "The OS thread is modelled as a transition system over the bounded channel; all interleavings."
  },
  {
   "property": "C59",
   "status": "partial",
   "theorems": [
    "Verif.Props.Chip8.C59_split_partial",
    "Verif.Props.Chip8.C59_split_panic_partial",
    "Verif.Props.Chip8.C59_steps_partial",
    "Verif.Props.Chip8.C59_iterator_agrees_partial",
    "Verif.Props.Chip8.C59_split_differs",
    "Verif.Props.Chip8.C59_late_partial",
    "Verif.Props.Chip8.C59_world_partial",
    "Verif.Props.Chip8.C59_split_iff_partial",
    "Verif.Props.Chip8.C59_panic_partial",
    "Verif.Props.Chip8.C59_split_unread_partial",
    "Verif.Props.Chip8.C59_split_shown_partial",
    "Verif.Props.Chip8.C59_split_expired_partial"
   ],
   "note": "False of the code when the clock moves between the two executions of a timer write (C59_split_differs). Proved when each step sees one instant (C59_split_partial, C59_steps_partial), and up to the timers' instants always (C59_iterator_agrees_partial). For every clock a run is a run of single steps in which the delay timer is read at most as much later as the clock moves between the two executions (C59_late_partial, C59_world_partial). For every clock, exactly when a run can be split: iff no later instruction reads different values from the delay timers of the two copies (C59_split_iff_partial), hence whenever the delay timer is not read again or has run out (C59_split_unread_partial, C59_split_expired_partial)."
  },
  {
   "property": "C60",
   "status": "proved",
   "theorems": [
    "Verif.Chip8.Ring.C60_read",
    "Verif.Chip8.Ring.C60_write",
    "Verif.Chip8.Ring.C60_write_read",
    "Verif.Chip8.Ring.C60_empty_panics"
   ],
   "note": ""
  },
  {
   "property": "C61",
   "status": "proved",
   "theorems": [
    "Verif.Props.Chip8.C61_registers",
    "Verif.Props.Chip8.C61_i",
    "Verif.Props.Chip8.C61_delay",
    "Verif.Props.Chip8.C61_sound",
    "Verif.Props.Chip8.C61_stack",
    "Verif.Props.Chip8.C61_stack_cell",
    "Verif.Props.Chip8.C61_sp",
    "Verif.Props.Chip8.C61_display",
    "Verif.Props.Chip8.C61_key_rng",
    "Verif.Props.Chip8.C61_pc",
    "Verif.Props.Chip8.C61_bus",
    "Verif.Props.Chip8.C61_memory"
   ],
   "note": "One theorem per component; memory on any bus that behaves as memory."
  },
  {
   "property": "C62",
   "status": "proved",
   "theorems": [
    "Verif.Props.Chip8.C62_reasons",
    "Verif.Props.Chip8.C62_panics",
    "Verif.Props.Chip8.C62_panics_refused",
    "Verif.Props.Chip8.C62_panics_block",
    "Verif.Props.Chip8.C62_step",
    "Verif.Props.Chip8.C62_run",
    "Verif.Props.Chip8.C62_default_accepts",
    "Verif.Props.Chip8.C62_default",
    "Verif.Props.Chip8.C62_fresh"
   ],
   "note": "All reasons, with converses; absence of panics for steps and runs of any length; instance for the default machine."
  },
  {
   "property": "C63",
   "status": "partial",
   "theorems": [
    "Verif.Props.C63_mos",
    "Verif.Props.C63_mos_order",
    "Verif.Props.C63_display_clears_key",
    "Verif.Props.C63_vf_panics",
    "Verif.Props.C63_chip8_partial",
    "Verif.Props.C63_no_display_partial",
    "Verif.Props.C63_rng_other_type"
   ],
   "note": "6502 proved. CHIP-8 false of the code: with_display drops the pending key (C63_display_clears_key) and with_gp_register panics for VF (C63_vf_panics); C63_chip8_partial is exact for all other sequences of calls."
  },
  {
   "property": "C64",
   "status": "proved",
   "theorems": [
    "Verif.Props.C64_matrix",
    "Verif.Props.C64_count",
    "Verif.Props.C64_fetch",
    "Verif.Props.C64_all",
    "Verif.Props.C64_undocumented"
   ],
   "note": "The bit-field description in Spec/MosOpcodes is independent of the table in Model/Mos/Isa (trusted model of the external crate), so the table is checked against it."
  },
  {
   "property": "C65",
   "status": "partial",
   "theorems": [
    "Verif.Props.C65_partial",
    "Verif.Props.C65_refuted"
   ],
   "note": "False of the code (C65_refuted, a taken branch). C65_partial is exact: the states agree afterwards if and only if no checked address arithmetic overflows and the state is Faithful, an explicit condition on ADC, SBC, CMP/CPX/CPY, DEY, taken branches, PHP, BRK and RTI; the cycle counts agree if and only if CycleFaithful."
  },
  {
   "property": "C66",
   "status": "proved",
   "theorems": [
    "Verif.Props.C66_instructions",
    "Verif.Props.C66_run",
    "Verif.Props.C66_plain"
   ],
   "note": "The condition is stated on the reference machine only (Chip.Followed), plus bits 4 and 5 of the initial status being set. C66_plain: programs of instructions without deviation need no condition on data."
  },
  {
   "property": "C67",
   "status": "proved",
   "theorems": [
    "Verif.Props.C67_bus_is_stores",
    "Verif.Props.C67_run",
    "Verif.Props.C67_targets",
    "Verif.Props.C67_rate"
   ],
   "note": "The rate needs a bus that behaves as memory; the other theorems hold for every device."
  },
  {
   "property": "C68",
   "status": "proved",
   "theorems": [
    "Verif.Props.C68_hook",
    "Verif.Props.C68_capture",
    "Verif.Props.C68_memory"
   ],
   "note": "C68_memory needs a bus that behaves as memory and that does not refuse one of the remaining stores."
  },
  {
   "property": "C69",
   "status": "partial",
   "theorems": [
    "Verif.Props.C69_log_of_run",
    "Verif.Props.C69_told_early",
    "Verif.Props.C69_told_twice",
    "Verif.Props.C69_log_partial",
    "Verif.Props.C69_silent_partial"
   ],
   "note": "False of the code: run executes every instruction twice, once on the iterator's clone of the CPU and once by the fold, and an instruction that is cut off is executed once on the clone. C69_told_early and C69_told_twice are witnesses, C69_log_partial gives the exact sequence of calls for every run, C69_log_of_run shows that the logging run is run."
  },
  {
   "property": "C70",
   "status": "proved",
   "theorems": [
    "Verif.Props.C70_blink",
    "Verif.Props.C70_main"
   ],
   "note": "C70_main: the 80 cycles of main print ten lines."
  },
  {
   "property": "C71",
   "status": "proved",
   "theorems": [
    "Verif.Props.C71_hook_blink",
    "Verif.Props.C71_same_output"
   ],
   "note": "The difference (an instruction cut off by the cycles has already reached a device on the bus) is C69's."
  },
  {
   "property": "C72",
   "status": "partial",
   "theorems": [
    "Verif.Props.Chip8.C72_partial",
    "Verif.Props.Chip8.C72_refuted"
   ],
   "note": "False of the code. C72_refuted is a witness (8xy4); C72_partial gives the exact condition for every instruction: no use of VF (so none of 8xy4-8xyE, Dxyn), Fx0A only with a key held, Fx07 only while the clocks agree, Bnnn only below 4096, RET only if the cell at the stack pointer holds the return address."
  },
  {
   "property": "C73",
   "status": "proved",
   "theorems": [
    "Verif.Props.Chip8.C73_run",
    "Verif.Props.Chip8.C73_any_clock",
    "Verif.Props.Chip8.C73_first_return"
   ],
   "note": ""
  },
  {
   "property": "C74",
   "status": "partial",
   "theorems": [
    "Verif.Props.Chip8.C74_one_per_second",
    "Verif.Props.Chip8.C74_partial",
    "Verif.Props.Chip8.C74_slower_partial"
   ],
   "note": "False of the code: the timer loses one per second. C74_one_per_second is a witness; C74_partial says exactly when the value is right; C74_slower_partial: the timer is exactly sixty times slower."
  },
  {
   "property": "C75",
   "status": "partial",
   "theorems": [
    "Verif.Props.Chip8.C75_loaded",
    "Verif.Props.Chip8.C75_partial",
    "Verif.Props.Chip8.C75_font_partial",
    "Verif.Props.Chip8.C75_no_glyph",
    "Verif.Props.Chip8.C75_refuted"
   ],
   "note": "False of the code: nothing loads the font. C75_no_glyph: on the default machine with a program at 0x200 or above no digit has its glyph; C75_partial: the glyph is found exactly if memory holds the bytes of the font at five times the digit."
  },
  {
   "property": "C76",
   "status": "proved",
   "theorems": [
    "Verif.Props.C76_calls",
    "Verif.Props.C76_registers",
    "Verif.Props.C76_with_addressmap"
   ],
   "note": ""
  },
  {
   "property": "C77",
   "status": "proved",
   "theorems": [
    "Verif.Props.C77_cycles",
    "Verif.Props.C77_throughput",
    "Verif.Props.C77_small",
    "Verif.Props.C77_fastest",
    "Verif.Props.C77_slowest"
   ],
   "note": ""
  },
  {
   "property": "C78",
   "status": "proved",
   "theorems": [
    "Verif.Props.C78_nested",
    "Verif.Props.C78_single",
    "Verif.Props.C78_meet"
   ],
   "note": ""
  },
  {
   "property": "C79",
   "status": "proved",
   "theorems": [
    "Verif.Chip8.U12.C79_text",
    "Verif.Chip8.U12.C79_text_injective",
    "Verif.Chip8.U12.C79_case",
    "Verif.Chip8.U12.C79_widen",
    "Verif.Chip8.U12.C79_digits"
   ],
   "note": ""
  },
  {
   "property": "C80",
   "status": "proved",
   "theorems": [
    "Verif.Props.C80_register",
    "Verif.Props.C80_write",
    "Verif.Props.C80_write_told",
    "Verif.Props.C80_unmapped"
   ],
   "note": ""
  },
  {
   "property": "C81",
   "status": "proved",
   "theorems": [
    "Verif.Props.C81_chip8_run",
    "Verif.Props.C81_step",
    "Verif.Props.C81_instructions",
    "Verif.Props.C81_run",
    "Verif.Props.C81_order",
    "Verif.Props.C81_nesting",
    "Verif.Props.C81_segments",
    "Verif.Props.C81_flat"
   ],
   "note": ""
  },
  {
   "property": "C82",
   "status": "partial",
   "theorems": [
    "Verif.Mos.C82_add_partial",
    "Verif.Mos.C82_sub_partial",
    "Verif.Mos.C82_add_one_byte",
    "Verif.Mos.C82_no_carry",
    "Verif.Mos.C82_lost_carry"
   ],
   "note": "The statement is refuted (C82_no_carry, C82_lost_carry); the exact conditions under which the results are right are proved."
  },
  {
   "property": "C83",
   "status": "partial",
   "theorems": [
    "Verif.Mos.C83_copies_partial",
    "Verif.Mos.C83_cycles",
    "Verif.Mos.C83_one",
    "Verif.Mos.C83_endless",
    "Verif.Mos.C83_textbook_loop"
   ],
   "note": "The statement is refuted (C83_textbook_loop) and its failure shown for all n from 2 on (C83_endless); for the corrected displacement it is proved (C83_copies_partial)."
  },
  {
   "property": "C84",
   "status": "proved",
   "theorems": [
    "Verif.Props.Chip8.C84_chip8_code",
    "Verif.Props.Chip8.C84_chip8_store_panics",
    "Verif.Props.Chip8.C84_chip8_bus",
    "Verif.Props.Chip8.C84_chip8_memory",
    "Verif.Props.Chip8.C84_chip8_rom",
    "Verif.Props.C84_memory",
    "Verif.Props.C84_rom",
    "Verif.Props.C84_run",
    "Verif.Props.C84_code",
    "Verif.Props.C84_store_panics"
   ],
   "note": "Proved for both CPUs from the sequence of stores that reaches the bus."
  },
  {
   "property": "C85",
   "status": "proved",
   "theorems": [
    "Verif.Props.C85_repeats",
    "Verif.Props.C85_states",
    "Verif.Props.C85_never_panics",
    "Verif.Props.C85_panics_or_loops",
    "Verif.Props.C85_period",
    "Verif.Props.C85_flat",
    "Verif.Props.C85_map"
   ],
   "note": "Proved: determinism of the step, finiteness of the state space, and C12."
  },
  {
   "property": "C86",
   "status": "proved",
   "theorems": [
    "Verif.Props.Chip8.C86_chip8_run",
    "Verif.Props.Chip8.C86_chip8_registers",
    "Verif.Props.Chip8.C86_chip8_state",
    "Verif.Props.Chip8.C86_chip8_memory",
    "Verif.Props.Chip8.C86_chip8_bus",
    "Verif.Props.Chip8.C86_chip8_wellFormed",
    "Verif.Props.C86_run",
    "Verif.Props.C86_registers",
    "Verif.Props.C86_flags",
    "Verif.Props.C86_memory",
    "Verif.Props.C86_page_one",
    "Verif.Props.C86_bus"
   ],
   "note": "Proved for both CPUs by induction over the execution, from the documented tables of C16 and C61."
  },
  {
   "property": "C87",
   "status": "proved",
   "theorems": [
    "Verif.Props.Chip8.C87_wait_leaves",
    "Verif.Props.Chip8.C87_wait_stays",
    "Verif.Props.Chip8.C87_wait_ends",
    "Verif.Props.Chip8.C87_count"
   ],
   "note": "Proved for `run` itself with any clock, by induction on the rounds."
  },
  {
   "property": "C88",
   "status": "proved",
   "theorems": [
    "Verif.Props.C88_devices",
    "Verif.Props.C88_mos",
    "Verif.Props.C88_mos_run",
    "Verif.Props.C88_chip8",
    "Verif.Props.C88_via_new",
    "Verif.Props.C88_via",
    "Verif.Props.C88_via_refuses",
    "Verif.Props.C88_console",
    "Verif.Props.C88_hook"
   ],
   "note": "Proved for every device type, then for the adapters of the two examples."
  },
  {
   "property": "C89",
   "status": "proved",
   "theorems": [
    "Verif.Props.C89_complete",
    "Verif.Props.C89_write8",
    "Verif.Props.C89_inc8",
    "Verif.Props.C89_dec8",
    "Verif.Props.C89_flag",
    "Verif.Props.C89_pc",
    "Verif.Props.C89_memory",
    "Verif.Props.C89_inc_dec",
    "Verif.Props.C89_frame",
    "Verif.Props.C89_commute"
   ],
   "note": "Proved against numbers in registers; C89_complete shows that nothing of the CPU is left out."
  },
  {
   "property": "C90",
   "status": "partial",
   "theorems": [
    "Verif.Props.C90_range_run_partial",
    "Verif.Props.C90_range_exact_partial",
    "Verif.Props.C90_partial",
    "Verif.Props.C90_dec_partial",
    "Verif.Props.C90_stack_partial",
    "Verif.Props.C90_range_reversed_partial",
    "Verif.Props.C90_range_any_partial",
    "Verif.Props.C90_dec8_is_ignored",
    "Verif.Props.C90_dec16_is_ignored",
    "Verif.Props.C90_push_keeps_sp",
    "Verif.Props.C90_pop_keeps_sp",
    "Verif.Props.C90_range_is_a_run",
    "Verif.Props.C90_false"
   ],
   "note": "False: decrements do nothing, push and pop leave the stack pointer where it is, and a range of pixels is a run in reading order instead of a rectangle. Proved: all other operations are as documented; the exact effect of the deviating ones; a range is a rectangle exactly if it lies in one row or spans the full width; what ranges out of order do in either build."
  },
  {
   "property": "C91",
   "status": "proved",
   "theorems": [
    "Verif.Props.Chip8.C91_result",
    "Verif.Props.Chip8.C91_endless",
    "Verif.Props.Chip8.C91_ends_iff",
    "Verif.Props.Chip8.C91_multiply"
   ],
   "note": "Proved against a source language with its own meaning (Spec/Structured) that knows no CPU; a multiplication program is proved for all inputs."
  },
  {
   "property": "C92",
   "status": "partial",
   "theorems": [
    "Verif.Props.C92_result_partial",
    "Verif.Props.C92_endless_partial",
    "Verif.Props.C92_ends_iff_partial",
    "Verif.Props.C92_test_partial",
    "Verif.Props.C92_straight_partial",
    "Verif.Props.C92_after_the_manual_wrong"
   ],
   "note": "False for code written after the manual: a taken branch of displacement 3 lands inside the jump it should skip. Proved: with the displacement 5 every program behaves as it means (result, instruction count, endless runs, end exactly if the program ends); where a test leads for every displacement below 128; programs without branches run as written after the manual."
  },
  {
   "property": "C93",
   "status": "proved",
   "theorems": [
    "Verif.Props.C93_separately",
    "Verif.Props.C93_order",
    "Verif.Props.C93_register_refused",
    "Verif.Props.C93_register_text",
    "Verif.Props.C93_register_entries",
    "Verif.Props.C93_register_sharing",
    "Verif.Props.C93_instance",
    "Verif.Props.C93_rings"
   ],
   "note": "The map in the models of the two CPUs is proved to be the instance at u16 and u8 (C93_instance)."
  },
  {
   "property": "C94",
   "status": "proved",
   "theorems": [
    "Verif.Props.C94_reads",
    "Verif.Props.C94_reads_usize",
    "Verif.Props.C94_same",
    "Verif.Props.C94_same_usize"
   ],
   "note": "The reader (Spec/GenericMap) splits at commas and dots and reads decimal numerals; it does not use the printer."
  },
  {
   "property": "C95",
   "status": "proved",
   "theorems": [
    "Verif.Props.C95_result",
    "Verif.Props.C95_endless",
    "Verif.Props.C95_apart",
    "Verif.Props.C95_ends_iff"
   ],
   "note": "With branches after the 6502 manual it fails as C92 does; the limit of 256 bytes is that of the page."
  },
  {
   "property": "C96",
   "status": "proved",
   "theorems": [
    "Verif.Props.Chip8.C96_chip8_step",
    "Verif.Props.Chip8.C96_chip8_run",
    "Verif.Props.C96_step",
    "Verif.Props.C96_run",
    "Verif.Props.C96_chip8",
    "Verif.Props.C96_chip8_words",
    "Verif.Props.C96_slice"
   ],
   "note": "The reader of messages (Spec/PanicText) does not use the printer."
  },
  {
   "property": "C97",
   "status": "proved",
   "theorems": [
    "Verif.Props.C97_mos",
    "Verif.Props.C97_mos_runs",
    "Verif.Props.C97_chip8",
    "Verif.Props.C97_chip8_runs"
   ],
   "note": "The bytes pushed by BRK are in the order the emulator uses (C29)."
  },
  {
   "property": "C98",
   "status": "proved",
   "theorems": [
    "Verif.Props.Chip8.C98_world",
    "Verif.Props.Chip8.C98_still",
    "Verif.Props.Chip8.C98_repeats",
    "Verif.Props.Chip8.C98_returns",
    "Verif.Props.Chip8.C98_map",
    "Verif.Props.Chip8.C98_flat"
   ],
   "note": "C85 is the statement for the 6502."
  },
  {
   "property": "C99",
   "status": "partial",
   "theorems": [
    "Verif.Props.Chip8.C99_result_partial",
    "Verif.Props.Chip8.C99_stuck_partial",
    "Verif.Props.Chip8.C99_ends_iff_partial",
    "Verif.Props.Chip8.C99_call_partial",
    "Verif.Props.Chip8.C99_rounds_partial",
    "Verif.Props.Chip8.C99_returns_to_call"
   ],
   "note": "The expected statement is false: CALL stores its own address and RET jumps to it, with the stack pointer unchanged by both (see also C73_first_return). C99_returns_to_call refutes it; the other theorems say exactly what happens."
  },
  {
   "property": "C100",
   "status": "proved",
   "theorems": [
    "Verif.Props.C100_time",
    "Verif.Props.C100_unique",
    "Verif.Props.C100_not_before"
   ],
   "note": "Times are summed from the documented cycles of the instructions; the page-crossing cycle of a taken branch depends on where the test lies, so the running time is a function of the place as well."
  },
  {
   "property": "C101",
   "status": "partial",
   "theorems": [
    "Verif.Props.C101_calls_partial",
    "Verif.Props.C101_determined_partial",
    "Verif.Props.C101_own_bytes_partial",
    "Verif.Props.C101_memory_partial",
    "Verif.Props.C101_key_lost",
    "Verif.Props.C101_false",
    "Verif.Props.C101_panics_partial"
   ],
   "note": "False as stated: three bytes are always fetched. The partial theorems give the exact sequence of calls for arbitrary devices, modelled as a tree of questions and answers, and what the instruction then does, also for answers that no memory gives."
  },
  {
   "property": "C102",
   "status": "proved",
   "theorems": [
    "Verif.Props.C102_transcript",
    "Verif.Props.C102_devices",
    "Verif.Props.C102_own_never_read",
    "Verif.Props.C102_values",
    "Verif.Props.C102_reset",
    "Verif.Props.C102_panics",
    "Verif.Props.C102_panics_own_never_read"
   ],
   "note": "C102_panics covers runs that panic through the CPU; runs that a device ends by its own panic are C139."
  },
  {
   "property": "C103",
   "status": "partial",
   "theorems": [
    "Verif.Props.C103_whole_partial",
    "Verif.Props.C103_cut_partial",
    "Verif.Props.C103_panic_partial",
    "Verif.Props.C103_memory_partial",
    "Verif.Props.C103_again_partial",
    "Verif.Props.C103_counts",
    "Verif.Props.C103_false"
   ],
   "note": "False as stated: the instruction is executed on the clone before its cycles have passed, and again on the CPU, so shared memory sees it early and twice."
  },
  {
   "property": "C104",
   "status": "proved",
   "theorems": [
    "Verif.Props.Chip8.C104_instruction",
    "Verif.Props.Chip8.C104_panics",
    "Verif.Props.Chip8.C104_memory",
    "Verif.Props.Chip8.C104_run",
    "Verif.Props.Chip8.C104_devices",
    "Verif.Props.Chip8.C104_own_never_read",
    "Verif.Props.Chip8.C104_values",
    "Verif.Props.Chip8.C104_panic_reason",
    "Verif.Props.Chip8.C104_run_panics",
    "Verif.Props.Chip8.C104_panics_own_never_read"
   ],
   "note": "Also true of instructions that panic: C104_panics says which calls they have made. A sprite's rows are read although drawing always panics afterwards (see the display properties)."
  },
  {
   "property": "C105",
   "status": "proved",
   "theorems": [
    "Verif.Props.Chip8.C105_shared",
    "Verif.Props.Chip8.C105_panics",
    "Verif.Props.Chip8.C105_memory",
    "Verif.Props.Chip8.C105_cells_needed"
   ],
   "note": "The second execution uses another instant of the clock, so the two machines may differ in their timers while their memories agree."
  },
  {
   "property": "C106",
   "status": "partial",
   "theorems": [
    "Verif.Props.Chip8.C106_bytes_partial",
    "Verif.Props.Chip8.C106_environment_partial",
    "Verif.Props.Chip8.C106_shared_partial",
    "Verif.Props.Chip8.C106_restart_partial",
    "Verif.Props.Chip8.C106_unix_partial",
    "Verif.Props.Chip8.C106_unix_bytes_partial",
    "Verif.Props.Chip8.C106_unix_refused_partial",
    "Verif.Props.Chip8.C106_same_byte_partial",
    "Verif.Props.Chip8.C106_false"
   ],
   "note": "Fails: C106_false (two Cxkk in two runs get the same byte). Exact partial theorems for all generators. BufferedRandomNumberGenerator is not Clone, so a machine with it cannot be run through Cpu::run at all."
  },
  {
   "property": "C107",
   "status": "proved",
   "theorems": [
    "Verif.Props.C107_read",
    "Verif.Props.C107_write",
    "Verif.Props.C107_unmapped",
    "Verif.Props.C107_values",
    "Verif.Props.C107_first_kind",
    "Verif.Props.C107_second_kind"
   ],
   "note": ""
  },
  {
   "property": "C108",
   "status": "partial",
   "theorems": [
    "Verif.Props.C108_mos_partial",
    "Verif.Props.C108_chip8_partial",
    "Verif.Props.C108_input_partial",
    "Verif.Props.C108_false"
   ],
   "note": "Fails: C108_false (a queue of two bytes); also on the 6502 (input_once, input_twice). Exact partial theorems."
  },
  {
   "property": "C109",
   "status": "partial",
   "theorems": [
    "Verif.Props.Chip8.C109_kth_partial",
    "Verif.Props.Chip8.C109_panic_partial",
    "Verif.Props.Chip8.C109_ends_partial",
    "Verif.Props.Chip8.C109_last_partial",
    "Verif.Props.Chip8.C109_false"
   ],
   "note": "Fails: C109_false (one byte, then a panic). Exact partial theorems."
  },
  {
   "property": "C110",
   "status": "proved",
   "theorems": [
    "Verif.Props.C110_ok",
    "Verif.Props.C110_panic",
    "Verif.Props.C110_back",
    "Verif.Props.C110_mos_run",
    "Verif.Props.C110_mos_continued",
    "Verif.Props.C110_mos_reset",
    "Verif.Props.C110_mos_next",
    "Verif.Props.C110_mos_microcode",
    "Verif.Props.C110_mos_default",
    "Verif.Props.C110_chip8_run",
    "Verif.Props.C110_chip8_next",
    "Verif.Props.C110_chip8_microcode",
    "Verif.Props.C110_chip8_default",
    "Verif.Props.C110_u12",
    "Verif.Props.C110_memory",
    "Verif.Props.C110_map",
    "Verif.Props.C110_live_mos_next",
    "Verif.Props.C110_live_mos_run",
    "Verif.Props.C110_live_chip8_next",
    "Verif.Props.C110_live_chip8_run",
    "Verif.Props.C110_live_mos_devices",
    "Verif.Props.C110_live_chip8_devices"
   ],
   "note": "Agreement is a relation on results (equal, or the checked one an overflow) closed under the sequencing of the code; proved function by function for all 151 6502 instructions and 35 CHIP-8 instructions. The same on live devices, as trees of bus calls (C110_live_*)."
  },
  {
   "property": "C111",
   "status": "proved",
   "theorems": [
    "Verif.Props.C111_fetch",
    "Verif.Props.C111_step",
    "Verif.Props.C111_executes",
    "Verif.Props.C111_instructions",
    "Verif.Props.C111_run",
    "Verif.Props.C111_loaded",
    "Verif.Props.C111_cycles_differ",
    "Verif.Props.C111_jump_differs"
   ],
   "note": "Per instruction and by induction over executions; the decoder needs only the instruction's own bytes in place although three are fetched. Witnesses: a loop moved across a page boundary, a branch whose cycles differ, a jump that does not move."
  },
  {
   "property": "C112",
   "status": "proved",
   "theorems": [
    "Verif.Props.Chip8.C112_next",
    "Verif.Props.Chip8.C112_run",
    "Verif.Props.Chip8.C112_later_next",
    "Verif.Props.Chip8.C112_later_run",
    "Verif.Props.Chip8.C112_sound_next",
    "Verif.Props.Chip8.C112_sound_run",
    "Verif.Props.Chip8.C112_rewritten",
    "Verif.Props.Chip8.C112_expired"
   ],
   "note": "The relation between the machines and the shift are defined in Spec/Chip8Time.lean."
  },
  {
   "property": "C113",
   "status": "proved",
   "theorems": [
    "Verif.Props.C113_fetch",
    "Verif.Props.C113_step",
    "Verif.Props.C113_executes",
    "Verif.Props.C113_instructions",
    "Verif.Props.C113_run",
    "Verif.Props.C113_idle_flags",
    "Verif.Props.C113_dey_uses_x"
   ],
   "note": "The tables of what an instruction uses and sets are in Spec/MosUses.lean. Stores are assumed to be accepted by the second bus."
  },
  {
   "property": "C114",
   "status": "proved",
   "theorems": [
    "Verif.Props.Chip8.C114_step",
    "Verif.Props.Chip8.C114_does",
    "Verif.Props.Chip8.C114_run",
    "Verif.Props.Chip8.C114_idle"
   ],
   "note": "The tables of what an instruction uses and sets are in Spec/Chip8Uses.lean. Stores are assumed to be accepted by the second bus. Instructions that need VF end a run with a panic (C44 and others) and do not count."
  },
  {
   "property": "C115",
   "status": "proved",
   "theorems": [
    "Verif.Props.Chip8.C115_step",
    "Verif.Props.Chip8.C115_moves",
    "Verif.Props.Chip8.C115_run"
   ],
   "note": "Linking (patch, LinkedMem, Linked, Movable) is defined in Spec/Chip8Link.lean. Stores are assumed to be accepted by the second bus."
  },
  {
   "property": "C116",
   "status": "proved",
   "theorems": [
    "Verif.Props.Chip8.C116_step",
    "Verif.Props.Chip8.C116_renames",
    "Verif.Props.Chip8.C116_run"
   ],
   "note": "Renaming (rename, RenamedMem, Renamed, Renamable) is defined in Spec/Chip8Rename.lean. Stores are assumed to be accepted by the second bus."
  },
  {
   "property": "C117",
   "status": "proved",
   "theorems": [
    "Verif.Props.C117_assembly_unique",
    "Verif.Props.C117_disassembly_unique",
    "Verif.Props.C117_encodable",
    "Verif.Props.C117_fetch",
    "Verif.Props.C117_in_order",
    "Verif.Props.C117_executes",
    "Verif.Props.C117_no_prefetch",
    "Verif.Props.Chip8.C117_chip8_in_order",
    "Verif.Props.Chip8.C117_chip8_no_prefetch"
   ],
   "note": "Listings and their bytes are defined in Spec/Listing.lean from the opcode matrix (C64) and the CHIP-8 encoding (C40)."
  },
  {
   "property": "C118",
   "status": "partial",
   "theorems": [
    "Verif.Props.C118_fetch",
    "Verif.Props.C118_step_partial",
    "Verif.Props.C118_instructions_partial",
    "Verif.Props.C118_run_partial",
    "Verif.Props.C118_decrements_partial",
    "Verif.Props.C118_dey"
   ],
   "note": "False as written: DEY sets N and Z from X - 1 (src/cpu/mos6502/operations/mod.rs), C118_dey. C118_step_partial and C118_run_partial hold for all other instructions, and for DEX and DEY exactly when X - 1 and Y - 1 give the same flags (C118_decrements_partial)."
  },
  {
   "property": "C119",
   "status": "proved",
   "theorems": [
    "Verif.Props.Chip8.C119_chip8_either_order",
    "Verif.Props.Chip8.C119_chip8_dependent",
    "Verif.Props.C119_either_order",
    "Verif.Props.C119_last_decides",
    "Verif.Props.C119_dependent"
   ],
   "note": "What an instruction looks at and sets is the table of C113 and C114; C119_last_decides, C119_dependent and C119_chip8_dependent show that neither condition can be left out."
  },
  {
   "property": "C120",
   "status": "proved",
   "theorems": [
    "Verif.Props.Chip8.C120_chip8_repeat",
    "Verif.Props.Chip8.C120_chip8_and_or",
    "Verif.Props.Chip8.C120_chip8_looks",
    "Verif.Props.C120_repeat",
    "Verif.Props.C120_and_ora",
    "Verif.Props.C120_looks"
   ],
   "note": "What an instruction looks at and sets is the table of C113 and C114; C120_looks and C120_chip8_looks show that the condition cannot be left out."
  },
  {
   "property": "C121",
   "status": "partial",
   "theorems": [
    "Verif.Props.Chip8.C121_chip8_xor",
    "Verif.Props.Chip8.C121_chip8_add",
    "Verif.Props.C121_inx_dex",
    "Verif.Props.C121_dey_iny",
    "Verif.Props.C121_iny_dey_partial",
    "Verif.Props.C121_inc_dec",
    "Verif.Props.C121_eor",
    "Verif.Props.C121_rotations",
    "Verif.Props.C121_shifts",
    "Verif.Props.C121_adc_sbc",
    "Verif.Props.C121_iny_dey_false"
   ],
   "note": "False for the flags after INY; DEY, because DEY takes them from X - 1 (C121_iny_dey_false); C121_iny_dey_partial says what holds for that pair. All other pairs are proved as stated. C121_adc_sbc states nothing about carry and overflow at the end."
  },
  {
   "property": "C122",
   "status": "proved",
   "theorems": [
    "Verif.Props.Chip8.C122_chip8_sys",
    "Verif.Props.Chip8.C122_chip8_needed",
    "Verif.Props.C122_nops",
    "Verif.Props.C122_needed"
   ],
   "note": "What an instruction looks at and sets is the table of C113 and C114; C122_needed and C122_chip8_needed show that the condition cannot be left out."
  },
  {
   "property": "C123",
   "status": "proved",
   "theorems": [
    "Verif.Props.Chip8.C123_digits",
    "Verif.Props.Chip8.C123_orders",
    "Verif.Props.Chip8.C123_injective",
    "Verif.Props.Chip8.C123_surjective",
    "Verif.Props.Chip8.C123_back",
    "Verif.Props.Chip8.C123_masked"
   ],
   "note": ""
  },
  {
   "property": "C124",
   "status": "proved",
   "theorems": [
    "Verif.Props.C124_fetch",
    "Verif.Props.C124_step",
    "Verif.Props.C124_moves",
    "Verif.Props.C124_instructions",
    "Verif.Props.C124_run",
    "Verif.Props.C124_rti_differs"
   ],
   "note": "The instructions C111 leaves out (JMP, JSR, RTS, RTI, BRK) are included. The pair of bytes RTI jumps by is not the pair BRK has pushed, because BRK pushes the low byte first: C124_rti_differs shows that a return from BRK cannot be moved."
  },
  {
   "property": "C125",
   "status": "proved",
   "theorems": [
    "Verif.Props.C125_fetch",
    "Verif.Props.C125_step",
    "Verif.Props.C125_executes",
    "Verif.Props.C125_instructions",
    "Verif.Props.C125_run",
    "Verif.Props.C125_tsx_differs"
   ],
   "note": "TSX and TXS have to be left out: C125_tsx_differs."
  },
  {
   "property": "C126",
   "status": "proved",
   "theorems": [
    "Verif.Props.C126_fetch",
    "Verif.Props.C126_step",
    "Verif.Props.C126_executes",
    "Verif.Props.C126_instructions",
    "Verif.Props.C126_run",
    "Verif.Props.C126_cycles_differ"
   ],
   "note": "The places of pointers may change, the bytes pointed to by them keep their places (a pointer is data). C126_cycles_differ shows a page crossing that one place has and the other has not."
  },
  {
   "property": "C127",
   "status": "proved",
   "theorems": [
    "Verif.Props.Chip8.C127_step",
    "Verif.Props.Chip8.C127_does",
    "Verif.Props.Chip8.C127_run"
   ],
   "note": "The program itself does not move here (that is C115); the two can be applied one after the other."
  },
  {
   "property": "C128",
   "status": "proved",
   "theorems": [
    "Verif.Props.C128_ends",
    "Verif.Props.C128_result",
    "Verif.Props.C128_multiply"
   ],
   "note": "C128_ends: one gets behind its code exactly if the other does; C128_result: then the variables agree, the other bytes of the zero page and all memory above are unchanged; C128_multiply: the multiplication proved for the CHIP-8 carried over to the 6502. Branches with displacement 5, as C92 shows the emulator needs. Examples: 12 times 21 on both machines, and a loop that ends on neither."
  },
  {
   "property": "C129",
   "status": "proved",
   "theorems": [
    "Verif.Props.C129_operand",
    "Verif.Props.C129_store",
    "Verif.Props.C129_modify",
    "Verif.Props.C129_accumulator",
    "Verif.Props.C129_jump",
    "Verif.Props.C129_transfer"
   ],
   "note": "C129_operand: loads, arithmetic, logic, comparisons; C129_store; C129_modify: read-modify-write in memory; C129_accumulator: shifts of the accumulator against memory; C129_jump; C129_transfer. Examples: LDA #$14 against LDA ($10),Y, STX $14 against STX $10,Y, INC $13 against INC $10,X, ROL A against ROL $13, JMP $1110 against JMP ($0010), TAX against LDX $13."
  },
  {
   "property": "C130",
   "status": "proved",
   "theorems": [
    "Verif.Props.Chip8.C130_untouched",
    "Verif.Props.Chip8.C130_last",
    "Verif.Props.Chip8.C130_order",
    "Verif.Props.Chip8.C130_again",
    "Verif.Props.Chip8.C130_line",
    "Verif.Props.Chip8.C130_read"
   ],
   "note": "C130_last and C130_untouched: painter's order; C130_order, C130_again: consequences; C130_line: a line of digits is legible; C130_read: it determines the digits. Examples: C0DE five pixels apart; the same two digits drawn from the right to the left, where one spoils the other."
  },
  {
   "property": "C131",
   "status": "proved",
   "theorems": [
    "Verif.Props.Chip8.C131_chip8",
    "Verif.Props.Chip8.C131_chip8_crc",
    "Verif.Mos.C131_mos",
    "Verif.Mos.C131_mos_crc"
   ],
   "note": "C131_mos and C131_chip8: the loop computes the fold; C131_mos_crc and C131_chip8_crc: with the table of a CRC it is the bit-serial CRC. Examples: the check value 0xF4 of CRC-8 for the message 123456789 on both machines. As C26 shows, the displacement an assembler emits would miss the loop by two bytes; the theorem uses the one this emulator needs."
  },
  {
   "property": "C132",
   "status": "proved",
   "theorems": [
    "Verif.Props.C132_accepted_iff",
    "Verif.Props.C132_entries",
    "Verif.Props.C132_every_order_iff",
    "Verif.Props.C132_some_order_iff",
    "Verif.Props.C132_order_irrelevant",
    "Verif.Props.C132_order_matters"
   ],
   "note": "C132_accepted_iff, C132_every_order_iff and C132_some_order_iff are exact conditions; C132_entries: nothing is lost or added; C132_order_irrelevant: the maps behave alike; C132_order_matters: a small range and then one around it is accepted, the other order refused. The expected rule, that overlapping devices are always refused, is false of the code (C04)."
  },
  {
   "property": "C133",
   "status": "proved",
   "theorems": [
    "Verif.Props.C133_constant",
    "Verif.Props.C133_time",
    "Verif.Props.C133_time_taken",
    "Verif.Props.C133_branch_to_next"
   ],
   "note": "C133_constant: straight-line code; C133_time and C133_time_taken: what the time depends on; C133_branch_to_next: the leak. Since branches of this emulator count from themselves (C26), the exception is the displacement 2, not 0 as documented."
  },
  {
   "property": "C134",
   "status": "proved",
   "theorems": [
    "Verif.Props.C134_agree_ends",
    "Verif.Props.C134_agree",
    "Verif.Props.Chip8.C134_chip8_result",
    "Verif.Props.Chip8.C134_chip8_endless",
    "Verif.Props.Chip8.C134_chip8_ends_iff",
    "Verif.Props.C134_mos_result",
    "Verif.Props.C134_mos_endless",
    "Verif.Props.C134_mos_ends_iff"
   ],
   "note": "C134_chip8_result, C134_chip8_endless and C134_chip8_ends_iff for the CHIP-8, C134_mos_result, C134_mos_endless and C134_mos_ends_iff for the 6502, C134_agree_ends and C134_agree for both. On the 6502 the code is written for the branch targets of this emulator (C31); with those of the manual C92 shows that it goes wrong. The language has no comparison by size, as SUB panics on the CHIP-8 (C50)."
  },
  {
   "property": "C135",
   "status": "proved",
   "theorems": [
    "Verif.Props.C135_chip8",
    "Verif.Props.C135_mos"
   ],
   "note": "C135_chip8 and C135_mos. What sorted means is Spec.Sort.Sorted: a permutation in ascending order. The sort itself is proved on the language only (Proofs/Sort) and carried over by C134."
  },
  {
   "property": "C136",
   "status": "partial",
   "theorems": [
    "Verif.Props.C136_mos_partial",
    "Verif.Props.C136_joined_partial",
    "Verif.Props.C136_chip8",
    "Verif.Props.C136_devices_partial",
    "Verif.Props.C136_lost",
    "Verif.Props.C136_all_lost",
    "Verif.Props.C136_false"
   ],
   "note": "C136_statement is what is expected, C136_false refutes it, C136_lost and C136_all_lost show how input is lost. C136_mos_partial and C136_joined_partial are what holds on the 6502; missing is the case that the run ends within an instruction, where the code breaks it. C136_chip8 is the full claim for the CHIP-8. C136_devices_partial names the devices."
  },
  {
   "property": "C137",
   "status": "proved",
   "theorems": [
    "Verif.Props.Chip8.C137_chip8_panic_stays",
    "Verif.Props.Chip8.C137_chip8_panics",
    "Verif.Props.Chip8.C137_chip8_loops",
    "Verif.Props.Chip8.C137_chip8_map",
    "Verif.Props.Chip8.C137_chip8_still",
    "Verif.Props.Chip8.C137_chip8_needed",
    "Verif.Props.C137_panic_stays",
    "Verif.Props.C137_panics",
    "Verif.Props.C137_loops",
    "Verif.Props.C137_map",
    "Verif.Props.C137_map_loops",
    "Verif.Props.C137_rom",
    "Verif.Props.C137_flat",
    "Verif.Props.C137_needed"
   ],
   "note": "Bus states are counted in Proofs/MosBound (`sameRom`: writes change the bytes of ReadWrite segments only), CHIP-8 states in Proofs/Chip8Bound. The lower bounds (`C137_needed`, `C137_chip8_needed`) are attained by a program in ROM that counts through all values of the RAM (Spec/MosCounter, Spec/Chip8Counter)."
  },
  {
   "property": "C138",
   "status": "partial",
   "theorems": [
    "Verif.Props.Chip8.C138_chip8_partial",
    "Verif.Props.Chip8.C138_chip8_once_partial",
    "Verif.Props.Chip8.C138_chip8_echo_partial",
    "Verif.Props.C138_partial",
    "Verif.Props.C138_once_partial",
    "Verif.Props.C138_filter_partial",
    "Verif.Props.C138_lamp_partial",
    "Verif.Props.C138_false"
   ],
   "note": "The expected statement (each byte given once) is false, `C138_false`; the exact behaviour is `C138_partial` and `C138_chip8_partial`. Instructions that read the port more than once (sprites or registers read across it, a pointer at it) or fetch their own bytes from it are outside `Talks`; their calls are C101/C104."
  },
  {
   "property": "C139",
   "status": "proved",
   "theorems": [
    "Verif.Props.Chip8.C139_chip8_panics",
    "Verif.Props.Chip8.C139_chip8_own_never_read",
    "Verif.Props.Chip8.C139_chip8_watch",
    "Verif.Props.C139_panics",
    "Verif.Props.C139_own_never_read",
    "Verif.Props.C139_watch"
   ],
   "note": "exact: the generic lemma exec_error_iff is an equivalence; what the calls are comes from C102/C104. Unwinding (Drop of the clones) is not modelled: only what the clones share can be seen after a panic."
  },
  {
   "property": "C140",
   "status": "proved",
   "theorems": [
    "Verif.Props.C140_restores",
    "Verif.Props.C140_resumes",
    "Verif.Props.C140_again",
    "Verif.Props.C140_anytime",
    "Verif.Props.C140_overlap"
   ],
   "note": "The save and restore procedure is a client of the public functions and is written in the spec, not in the code; its steps cite the functions it calls. The status byte goes through the conversions of C11."
  },
  {
   "property": "C141",
   "status": "proved",
   "theorems": [
    "Verif.Props.Chip8.C141_chip8_swap",
    "Verif.Props.Chip8.C141_chip8_add",
    "Verif.Props.Chip8.C141_chip8_middle",
    "Verif.Props.C141_swap",
    "Verif.Props.C141_run",
    "Verif.Props.C141_clc_rol",
    "Verif.Props.C141_forward",
    "Verif.Props.C141_middle"
   ],
   "note": "SameWork is a condition on the two pieces alone; sameWork_listings reduces it, for listings without jumps, to equal effects."
  },
  {
   "property": "C142",
   "status": "proved",
   "theorems": [
    "Verif.Props.Chip8.C142_blank",
    "Verif.Props.Chip8.C142_emits",
    "Verif.Props.Chip8.C142_run",
    "Verif.Props.Chip8.C142_host",
    "Verif.Props.Chip8.C142_odd"
   ],
   "note": "That the listed operations are all that is public is read off the visibility of fields and modules and is part of the trusted base; the builder methods are taken with all arguments, more than a host can name."
  },
  {
   "property": "C143",
   "status": "proved",
   "theorems": [
    "Verif.Props.C143_time",
    "Verif.Props.C143_unique",
    "Verif.Props.C143_not_before",
    "Verif.Props.C143_sort",
    "Verif.Props.C143_aligned",
    "Verif.Props.C143_bounds"
   ],
   "note": "The cycle counts are those the emulator charges, which C31 relates to the documented ones; a branch is charged for another page than that of the branch itself."
  },
  {
   "property": "C144",
   "status": "proved",
   "theorems": [
    "Verif.Props.C144_chip8",
    "Verif.Props.C144_mos",
    "Verif.Props.C144_order",
    "Verif.Props.C144_cycles_per_instruction"
   ],
   "note": "Exact counts of executed instructions for the counting sort of C135 on both machines; formulas in Spec/SortTimed."
  },
  {
   "property": "C145",
   "status": "proved",
   "theorems": [
    "Verif.Props.C145_chip8_follows",
    "Verif.Props.C145_chip8_endless",
    "Verif.Props.C145_chip8_ends_iff",
    "Verif.Props.C145_mos_follows",
    "Verif.Props.C145_mos_endless",
    "Verif.Props.C145_mos_ends_iff",
    "Verif.Props.C145_agree",
    "Verif.Props.C145_unique"
   ],
   "note": "Unstructured control flow, where C91, C92 and C134 have structured programs only. Semantics in Spec/Chart."
  },
  {
   "property": "C146",
   "status": "proved",
   "theorems": [
    "Verif.Props.C146_chip8",
    "Verif.Props.C146_mos"
   ],
   "note": "An instance of C145 whose loop is entered in the middle and left at two places. Specification in Spec/CopyText."
  },
  {
   "property": "C147",
   "status": "proved",
   "theorems": [
    "Verif.Props.C147_time",
    "Verif.Props.C147_unique",
    "Verif.Props.C147_not_before",
    "Verif.Props.C147_text",
    "Verif.Props.C147_aligned"
   ],
   "note": "C143 for unstructured programs; the formula for the text copy of C146 is in Spec/ChartTimed."
  },
  {
   "property": "C148",
   "status": "proved",
   "theorems": [
    "Verif.Props.C148_chip8",
    "Verif.Props.C148_mos",
    "Verif.Props.C148_chip8_size",
    "Verif.Props.C148_mos_size"
   ],
   "note": "An instance of C145 with a chart for every automaton. Automata and the words they accept are in Spec/Automaton."
  },
  {
   "property": "C149",
   "status": "proved",
   "theorems": [
    "Verif.Props.C149_print",
    "Verif.Props.C149_long",
    "Verif.Props.C149_adapter"
   ],
   "note": "The branch displacement is written for the emulator (C26). C149_print is for any bus, C149_adapter for a map with the adapter, C149_long for a text without an end."
  },
  {
   "property": "C150",
   "status": "proved",
   "theorems": [
    "Verif.Props.C150_chip8_steps",
    "Verif.Props.C150_chip8",
    "Verif.Props.C150_chip8_halts_iff",
    "Verif.Props.C150_mos_steps",
    "Verif.Props.C150_mos",
    "Verif.Props.C150_mos_halts_iff",
    "Verif.Props.C150_chip8_size",
    "Verif.Props.C150_mos_size"
   ],
   "note": "An instance of C145 with a chart for every Turing machine. Turing machines and their steps are in Spec/Turing."
  },
  {
   "property": "C151",
   "status": "proved",
   "theorems": [
    "Verif.Props.C151_chip8_steps",
    "Verif.Props.C151_chip8",
    "Verif.Props.C151_chip8_bounds",
    "Verif.Props.C151_mos_steps",
    "Verif.Props.C151_mos",
    "Verif.Props.C151_mos_bounds"
   ],
   "note": "The times are in Spec/TuringTimed, stated without the models. That the 6502 is inside as long as the executed instructions take fewer cycles is C147."
  },
  {
   "property": "C152",
   "status": "proved",
   "theorems": [
    "Verif.Props.Chip8.C152_panics",
    "Verif.Props.Chip8.C152_items",
    "Verif.Props.Chip8.C152_replay",
    "Verif.Props.Chip8.C152_run",
    "Verif.Props.Chip8.C152_split",
    "Verif.Props.Chip8.C152_prefix",
    "Verif.Props.Chip8.C152_timers",
    "Verif.Props.Chip8.C152_headless",
    "Verif.Props.Chip8.C152_screen"
   ],
   "note": "Model: Chip8.record (n calls of next with the items kept) and Chip8.replay (the fold with an instant for each microcode). SameButInstants is the relation of C59."
  },
  {
   "property": "C153",
   "status": "proved",
   "theorems": [
    "Verif.Props.C153_chip8",
    "Verif.Props.C153_chip8_linear",
    "Verif.Props.C153_chip8_whole",
    "Verif.Props.C153_mos",
    "Verif.Props.C153_mos_linear",
    "Verif.Props.C153_mos_whole"
   ],
   "note": "The times are in Spec/AutomatonTimed, stated without the models; C148 is the same without times. The branches of the code are those of the emulator, which land two bytes early (C26)."
  },
  {
   "property": "C154",
   "status": "proved",
   "theorems": [
    "Verif.Props.C154_slices",
    "Verif.Props.C154_panics",
    "Verif.Props.C154_behind",
    "Verif.Props.C154_reaches",
    "Verif.Props.C154_stuck",
    "Verif.Props.C154_wait",
    "Verif.Props.C154_chip8",
    "Verif.Props.C154_chip8_clock"
   ],
   "note": "By induction over the slices from C12, C77 and C59. C154_slices: executed instructions and lost cycles; C154_panics, C154_behind: compared with a single run; C154_reaches, C154_stuck: long and short slices; C154_wait: after a reset; C154_chip8: nothing is lost. C154_chip8_clock: the same for every clock, up to the instants at which the delay timer is read."
  },
  {
   "property": "C155",
   "status": "proved",
   "theorems": [
    "Verif.Props.Chip8.C155_waits",
    "Verif.Props.Chip8.C155_noticed",
    "Verif.Props.Chip8.C155_missed"
   ],
   "note": "C155_waits, C155_noticed and C155_missed, by induction over the frames from the effect of the two instructions."
  },
  {
   "property": "C156",
   "status": "proved",
   "theorems": [
    "Verif.Props.Mos.C156_waits",
    "Verif.Props.Mos.C156_noticed",
    "Verif.Props.Mos.C156_missed",
    "Verif.Props.Mos.C156_sharp"
   ],
   "note": "C156_waits, C156_noticed, C156_sharp and C156_missed, by induction over the frames; that the loop is never left or panics within a frame is an invariant of every instruction sequence (C12)."
  }
 ]
}
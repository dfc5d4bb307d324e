{
 "claims": [
  {
   "property": "C01",
   "status": "proved",
   "theorems": [
    "Verif.Props.Utf8.C01_utf8_stream_roundtrip",
    "Verif.Props.Utf8.C01_utf8_delivered_at_last_byte"
   ],
   "note": ""
  },
  {
   "property": "C02",
   "status": "proved",
   "theorems": [
    "Verif.Props.Utf8.C02_encode_spec",
    "Verif.Props.Utf8.C02_encode_length",
    "Verif.Props.Utf8.C02_encode_prefix_free",
    "Verif.Props.Utf8.C02_encode_alloc"
   ],
   "note": ""
  },
  {
   "property": "C03",
   "status": "proved",
   "theorems": [
    "Verif.Props.Utf8.C03_utf8_resync",
    "Verif.Props.Utf8.C03_utf8_resync_boundary",
    "Verif.Props.Utf8.C03_utf8_value_bound"
   ],
   "note": ""
  },
  {
   "property": "C04",
   "status": "partial",
   "theorems": [
    "Verif.Props.Utf8.C04_overlong_ascii_accepted",
    "Verif.Props.Utf8.C04_two_byte_overlong",
    "Verif.Props.Utf8.C04_ascii_only_from_itself_partial"
   ],
   "note": "False of the code: E0 80 9B (any platform) and C0 9B (signed char) decode to ESC. Negation proved; partial theorem for inputs without overlong starts."
  },
  {
   "property": "C05",
   "status": "proved",
   "theorems": [
    "Verif.Props.Symbol.C05_symbol",
    "Verif.Props.Wcwidth.C05_intable_correct",
    "Verif.Props.Wcwidth.C05_width_spec",
    "Verif.Props.Wcwidth.C05_width_range"
   ],
   "note": ""
  },
  {
   "property": "C06",
   "status": "partial",
   "theorems": [
    "Verif.Props.Symbol.C06_false_always",
    "Verif.Props.Symbol.C06_before_partial",
    "Verif.Props.Symbol.C06_false"
   ],
   "note": "False of the code: the index is off by one, so the symbol returned by a successful append never decomposes to its string, whatever happens before and after (C06_false_always). Proved: the number below the returned symbol decomposes to the right string at all later times."
  },
  {
   "property": "C07",
   "status": "partial",
   "theorems": [
    "Verif.Props.Symbol.C07_length_partial",
    "Verif.Props.Symbol.C07_same_partial",
    "Verif.Props.Symbol.C07_differ_partial",
    "Verif.Props.Symbol.C07_false_nomem"
   ],
   "note": "False of the code when growing the hash table or the index fails: an incremented pointer is passed to free (negation proved). Proved for all histories in which only the allocation of strings may fail, with addresses that can share a hash table (see C64) and at most 3*2^28 calls."
  },
  {
   "property": "C08",
   "status": "partial",
   "theorems": [
    "Verif.Props.Screen.C08_false",
    "Verif.Props.Screen.C08_false_tab",
    "Verif.Props.Screen.C08_step_safe_partial",
    "Verif.Props.Screen.C08_history_partial",
    "Verif.Props.Screen.C08_tame_partial"
   ],
   "note": "False of the code: writing a wide character in insert mode on a one-column screen moves an enormous block, and tab_left reads beyond the tab ruler after a wide character at the last column. Both negations proved; every other history is proved safe."
  },
  {
   "property": "C09",
   "status": "proved",
   "theorems": [
    "Verif.Props.Screen.C09_cursor_margins"
   ],
   "note": ""
  },
  {
   "property": "C10",
   "status": "proved",
   "theorems": [
    "Verif.Props.Screen.C10_failed_resize"
   ],
   "note": ""
  },
  {
   "property": "C11",
   "status": "proved",
   "theorems": [
    "Verif.Props.Screen.C11_write",
    "Verif.Props.Screen.C11_zero_width"
   ],
   "note": ""
  },
  {
   "property": "C12",
   "status": "proved",
   "theorems": [
    "Verif.Props.Screen.C12_text"
   ],
   "note": ""
  },
  {
   "property": "C13",
   "status": "proved",
   "theorems": [
    "Verif.Props.Screen.C13_scroll_up",
    "Verif.Props.Screen.C13_rows_in_scrollback"
   ],
   "note": ""
  },
  {
   "property": "C14",
   "status": "proved",
   "theorems": [
    "Verif.Props.Screen.C14_scroll_down",
    "Verif.Props.Screen.C14_zero"
   ],
   "note": ""
  },
  {
   "property": "C15",
   "status": "proved",
   "theorems": [
    "Verif.Props.Screen.C15_bounded",
    "Verif.Props.Screen.C15_step",
    "Verif.Props.Screen.C15_history",
    "Verif.Props.Screen.C15_set_max",
    "Verif.Props.Screen.C15_clear"
   ],
   "note": ""
  },
  {
   "property": "C16",
   "status": "proved",
   "theorems": [
    "Verif.Props.Screen.C16_alternate_isolated"
   ],
   "note": ""
  },
  {
   "property": "C17",
   "status": "proved",
   "theorems": [
    "Verif.Props.Screen.C17_resize",
    "Verif.Props.Screen.C17_same",
    "Verif.Props.Screen.C17_cells"
   ],
   "note": ""
  },
  {
   "property": "C18",
   "status": "partial",
   "theorems": [
    "Verif.Props.Screen.C18_chars_false",
    "Verif.Props.Screen.C18_erase_chars_partial",
    "Verif.Props.Screen.C18_erase"
   ],
   "note": "False of the code for erase_chars with counts near 2^32 (32-bit sum wraps, nothing erased); negation proved. All other erasures proved in full."
  },
  {
   "property": "C19",
   "status": "proved",
   "theorems": [
    "Verif.Props.Screen.C19_insert_lines",
    "Verif.Props.Screen.C19_delete_lines"
   ],
   "note": ""
  },
  {
   "property": "C20",
   "status": "proved",
   "theorems": [
    "Verif.Props.Screen.C20_insert_chars",
    "Verif.Props.Screen.C20_delete_chars",
    "Verif.Props.Screen.C20_zero"
   ],
   "note": ""
  },
  {
   "property": "C21",
   "status": "partial",
   "theorems": [
    "Verif.Props.Screen.C21_tab_right",
    "Verif.Props.Screen.C21_tab_left_partial",
    "Verif.Props.Screen.C21_tab_left_false"
   ],
   "note": "tab_left is undefined behaviour when the cursor is two beyond the last column (see C08); negation proved. Everything else proved."
  },
  {
   "property": "C22",
   "status": "proved",
   "theorems": [
    "Verif.Props.Screen.C22_move_up",
    "Verif.Props.Screen.C22_move_up_scroll",
    "Verif.Props.Screen.C22_move_down",
    "Verif.Props.Screen.C22_move_down_scroll",
    "Verif.Props.Screen.C22_move_left_right",
    "Verif.Props.Screen.C22_line_home_end",
    "Verif.Props.Screen.C22_newline"
   ],
   "note": ""
  },
  {
   "property": "C23",
   "status": "partial",
   "theorems": [
    "Verif.Props.Screen.C23_false",
    "Verif.Props.Screen.C23_move_to_partial",
    "Verif.Props.Screen.C23_move_to_absolute"
   ],
   "note": "False of the code in relative origin mode when margin_top + y wraps at 2^32; negation proved, the rest proved."
  },
  {
   "property": "C24",
   "status": "partial",
   "theorems": [
    "Verif.Props.Screen.C24_false",
    "Verif.Props.Screen.C24_insert_mode_partial"
   ],
   "note": "False of the code for a wide character on a one-column screen (the length of a memmove wraps); negation proved. Proved for all characters not wider than the screen."
  },
  {
   "property": "C25",
   "status": "proved",
   "theorems": [
    "Verif.Props.Screen.C25_coverage"
   ],
   "note": ""
  },
  {
   "property": "C26",
   "status": "proved",
   "theorems": [
    "Verif.Props.Screen.C26_content"
   ],
   "note": ""
  },
  {
   "property": "C27",
   "status": "proved",
   "theorems": [
    "Verif.Props.Screen.C27_cursor",
    "Verif.Props.Screen.C27_one_cursor"
   ],
   "note": ""
  },
  {
   "property": "C28",
   "status": "partial",
   "theorems": [
    "Verif.Props.Screen.C28_tracks_partial",
    "Verif.Props.Screen.C28_def_attr_partial",
    "Verif.Props.Screen.C28_live_partial",
    "Verif.Props.Screen.C28_false_def_attr",
    "Verif.Props.Screen.C28_false_resize"
   ],
   "note": "False of the code: set_def_attr changes cells beyond the end of scrollback lines without marking them, and resize does not mark the column a pending-wrap cursor leaves. Both negations proved; all histories of other calls are proved, including overflow, and those with set_def_attr whenever the second drawing returns another age than the first."
  },
  {
   "property": "C29",
   "status": "proved",
   "theorems": [
    "Verif.Props.Screen.C29_read_only"
   ],
   "note": ""
  },
  {
   "property": "C30",
   "status": "proved",
   "theorems": [
    "Verif.Props.Screen.C30_start",
    "Verif.Props.Screen.C30_target"
   ],
   "note": ""
  },
  {
   "property": "C31",
   "status": "proved",
   "theorems": [
    "Verif.Props.Screen.C31_highlight"
   ],
   "note": ""
  },
  {
   "property": "C32",
   "status": "partial",
   "theorems": [
    "Verif.Props.Screen.C32_copy_partial",
    "Verif.Props.Screen.C32_copy_from_text_partial",
    "Verif.Props.Screen.C32_false_newline"
   ],
   "note": "False of the code: a selection starting right of the last character of its first row loses the newline after that row; negation proved. The exact result is proved for all other selections."
  },
  {
   "property": "C33",
   "status": "partial",
   "theorems": [
    "Verif.Props.Screen.C33_false_scrolled",
    "Verif.Props.Screen.C33_false_scrolled_down",
    "Verif.Props.Screen.C33_false_buffer",
    "Verif.Props.Screen.C33_safe_partial"
   ],
   "note": "False of the code: copying after scrolling reads lines[-1] or beyond the screen, and rows of four-byte characters overflow the buffer; negations proved. Safe for selections at existing cells with characters of at most three bytes."
  },
  {
   "property": "C34",
   "status": "partial",
   "theorems": [
    "Verif.Props.Screen.C34_false_newest",
    "Verif.Props.Screen.C34_false_first_row",
    "Verif.Props.Screen.C34_direction_partial"
   ],
   "note": "False of the code for two orders of endpoints in the scrollback; negations proved, symmetric otherwise."
  },
  {
   "property": "C35",
   "status": "proved",
   "theorems": [
    "Verif.Props.Screen.C35_selection_follows"
   ],
   "note": ""
  },
  {
   "property": "C36",
   "status": "proved",
   "theorems": [
    "Verif.Props.Screen.C36_no_dangling"
   ],
   "note": ""
  },
  {
   "property": "C37",
   "status": "partial",
   "theorems": [
    "Verif.Props.Screen.C37_sb_up",
    "Verif.Props.Screen.C37_sb_down",
    "Verif.Props.Screen.C37_sb_reset",
    "Verif.Props.Screen.C37_page_false",
    "Verif.Props.Screen.C37_page_partial"
   ],
   "note": "False of the code for sb_page_up/down when pages * rows wraps at 2^32; negation proved, the rest proved."
  },
  {
   "property": "C38",
   "status": "partial",
   "theorems": [
    "Verif.Props.Screen.C38_false",
    "Verif.Props.Screen.C38_false_scrolled",
    "Verif.Props.Screen.C38_moves_partial",
    "Verif.Props.Screen.C38_step_partial",
    "Verif.Props.Screen.C38_max_partial",
    "Verif.Props.Screen.C38_false_max",
    "Verif.Props.Screen.C38_heals"
   ],
   "note": "False of the code: the reported position drifts on eviction and fixed-position scrolling; negations proved. A right report is kept by every call except sb_reset, a set_max_sb that drops lines, and calls that drop lines under a scrolled-back view; any line pushed on the live screen repairs it."
  },
  {
   "property": "C39",
   "status": "proved",
   "theorems": [
    "Verif.Props.Vte.C39_chunking"
   ],
   "note": ""
  },
  {
   "property": "C40",
   "status": "partial",
   "theorems": [
    "Verif.Props.Vte.C40_false",
    "Verif.Props.Vte.C40_false_tab",
    "Verif.Props.Vte.C40_false_insert",
    "Verif.Props.Vte.C40_input_safe_partial",
    "Verif.Props.Vte.C40_ascii_partial"
   ],
   "note": "False of the code: csi_argv[16] is read when the 16th SGR parameter is 38 or 48, a back tab after a wide character in the last column reads beyond the tab ruler, and a wide character in insert mode on a one-column screen. Negations proved; everything else is proved safe."
  },
  {
   "property": "C41",
   "status": "proved",
   "theorems": [
    "Verif.Props.Vte.C41_parameters",
    "Verif.Props.Vte.C41_bounded"
   ],
   "note": ""
  },
  {
   "property": "C42",
   "status": "partial",
   "theorems": [
    "Verif.Props.Vte.C42_false",
    "Verif.Props.Vte.C42_cursor_position_partial"
   ],
   "note": "False of the code in the middle of a UTF-8 character (ESC is swallowed); negation proved. Proved in every other state, in and out of origin mode."
  },
  {
   "property": "C43",
   "status": "partial",
   "theorems": [
    "Verif.Props.Vte.C43_false",
    "Verif.Props.Vte.C43_false_utf8",
    "Verif.Props.Vte.C43_can_partial",
    "Verif.Props.Vte.C43_sub_partial",
    "Verif.Props.Vte.C43_esc_partial",
    "Verif.Props.Vte.C43_state_partial"
   ],
   "note": "False of the code: SUB prints an inverted question mark, and ESC and CAN are swallowed inside an unfinished UTF-8 character. Negations proved; CAN, SUB and ESC proved to resynchronise between characters."
  },
  {
   "property": "C44",
   "status": "partial",
   "theorems": [
    "Verif.Vte.C44_delivered_partial",
    "Verif.Vte.C44_exact_partial",
    "Verif.Vte.C44_bounded",
    "Verif.Vte.C44_cut",
    "Verif.Vte.C44_not_a_prefix",
    "Verif.Vte.C44_false"
   ],
   "note": "Proved for strings of printable characters of at most 127 bytes, and what happens to all others (C44_delivered_partial, C44_bounded, C44_cut). False for strings with control characters, which are dropped (C44_false)."
  },
  {
   "property": "C45",
   "status": "partial",
   "theorems": [
    "Verif.Props.Vte.C45_false",
    "Verif.Props.Vte.C45_sgr_partial",
    "Verif.Props.Vte.C45_codes",
    "Verif.Props.Vte.C45_reset",
    "Verif.Props.Vte.C45_false_omitted"
   ],
   "note": "False of the code for a 16th parameter 38 or 48 (csi_argv[16] is read); negation proved. Proved for all other lists of parameters, with omitted parameters ignored as in the code; that they should mean 0 is refuted."
  },
  {
   "property": "C46",
   "status": "partial",
   "theorems": [
    "Verif.Props.Vte.C46_status",
    "Verif.Props.Vte.C46_report",
    "Verif.Props.Vte.C46_return_false",
    "Verif.Props.Vte.C46_return_false_origin",
    "Verif.Props.Vte.C46_return_partial"
   ],
   "note": "The replies are proved in full. Sending the position back does not restore it after the last column has been written or in origin mode; both negations proved, true otherwise."
  },
  {
   "property": "C47",
   "status": "partial",
   "theorems": [
    "Verif.Vte.C47_save",
    "Verif.Vte.C47_restore_partial",
    "Verif.Vte.C47_restored",
    "Verif.Vte.C47_false",
    "Verif.Vte.C47_false_wrap",
    "Verif.Vte.C47_false_sets"
   ],
   "note": "False of the code: with origin mode on at ESC 8 the cursor is moved by the margin, a pending wrap is lost, and designated character sets are not saved; three negations proved. The exact effect of ESC 7 and ESC 8 is proved for every history in between, and the claim where none of these applies."
  },
  {
   "property": "C48",
   "status": "partial",
   "theorems": [
    "Verif.Vte.C48_hard_reset",
    "Verif.Vte.C48_ris_partial",
    "Verif.Vte.C48_false"
   ],
   "note": "tsm_vte_hard_reset proved from every state. ESC c is swallowed in the middle of a UTF-8 character (negation proved); proved in every other state."
  },
  {
   "property": "C49",
   "status": "partial",
   "theorems": [
    "Verif.Vte.C49_reset",
    "Verif.Vte.C49_decstr_partial",
    "Verif.Vte.C49_false"
   ],
   "note": "tsm_vte_reset proved from every state. CSI ! p is lost in the middle of a UTF-8 character (negation proved); proved in every other state."
  },
  {
   "property": "C50",
   "status": "proved",
   "theorems": [
    "Verif.Props.Vte.C50_no_recursion",
    "Verif.Props.Vte.C50_echo",
    "Verif.Props.Vte.C50_no_echo"
   ],
   "note": ""
  },
  {
   "property": "C51",
   "status": "proved",
   "theorems": [
    "Verif.Vte.C51_charsets",
    "Verif.Vte.C51_single",
    "Verif.Vte.C51_halves",
    "Verif.Vte.C51_default",
    "Verif.Vte.C51_index"
   ],
   "note": ""
  },
  {
   "property": "C52",
   "status": "proved",
   "theorems": [
    "Verif.Vte.C52_same",
    "Verif.Vte.C52_text"
   ],
   "note": ""
  },
  {
   "property": "C53",
   "status": "partial",
   "theorems": [
    "Verif.Props.Vte.C53_seven_bit",
    "Verif.Props.Vte.C53_eight_bit_partial",
    "Verif.Props.Vte.C53_false",
    "Verif.Vte.C53_text"
   ],
   "note": "False of the code where char is signed: in 8-bit mode bytes above 0x7f are sign-extended and lost. Negation proved; 7-bit mode proved in full, 8-bit mode for unsigned char or bytes below 0x80."
  },
  {
   "property": "C54",
   "status": "partial",
   "theorems": [
    "Verif.Vte.C54_enter",
    "Verif.Vte.C54_leave",
    "Verif.Vte.C54_round_trip_partial",
    "Verif.Vte.C54_false",
    "Verif.Vte.C54_false_wrap"
   ],
   "note": "The text of the main screen is proved to come back after any output. The cursor does not if origin mode is on when leaving or a wrap was pending when entering; both negations proved, and the exact position in every case."
  },
  {
   "property": "C55",
   "status": "partial",
   "theorems": [
    "Verif.Vte.C55_one",
    "Verif.Vte.C55_sent_partial",
    "Verif.Vte.C55_echo_partial",
    "Verif.Vte.C55_character",
    "Verif.Vte.C55_control",
    "Verif.Vte.C55_false_7bit",
    "Verif.Vte.C55_false_nul"
   ],
   "note": "For all keysyms, modifiers, modes and characters: one string is sent or nothing happens, and the string is that of an independent description of the keyboard. Excluded, with the negations proved: characters beyond U+00FF in 7-bit mode (a key can send an unrelated ASCII character) and values beyond 0x7fffffff (NUL is sent)."
  },
  {
   "property": "C56",
   "status": "partial",
   "theorems": [
    "Verif.Vte.C56_prefix_partial",
    "Verif.Vte.C56_no_trace",
    "Verif.Vte.C56_false"
   ],
   "note": "Proved without local echo, and that no prefix is left pending in every state. False with local echo (negation proved): the echo of ESC Z produces a reply that takes the prefix."
  },
  {
   "property": "C57",
   "status": "partial",
   "theorems": [
    "Verif.Vte.C57_button_partial",
    "Verif.Vte.C57_motion_partial",
    "Verif.Vte.C57_pixel_partial",
    "Verif.Vte.C57_pixel_motion_partial",
    "Verif.Vte.C57_false",
    "Verif.Vte.C57_false_large",
    "Verif.Vte.C57_pixel_outside_partial",
    "Verif.Vte.C57_outside_partial"
   ],
   "note": "Reports of buttons are proved to decode to button, modifiers and position for positions below 9999999, also for negative ones; reports of motions to the position. False for motions (modifiers lost) and for large positions (24-byte buffer); both negations proved."
  },
  {
   "property": "C58",
   "status": "partial",
   "theorems": [
    "Verif.Vte.C58_report_partial",
    "Verif.Vte.C58_position",
    "Verif.Vte.C58_false",
    "Verif.Vte.C58_false_button"
   ],
   "note": "Proved for all positions below 2^32-33 and values of button and modifiers below 224; beyond, a byte wraps to NUL and ends the report (negations proved)."
  },
  {
   "property": "C59",
   "status": "partial",
   "theorems": [
    "Verif.Vte.C59_motion_filter",
    "Verif.Vte.C59_off",
    "Verif.Vte.C59_disable",
    "Verif.Vte.C59_dedup_step",
    "Verif.Vte.C59_dedup_partial",
    "Verif.Vte.C59_false"
   ],
   "note": "Filtering of motions, and no repetition of a cell over all sequences of events (SGR mode, no local echo) are proved. 'Nothing is reported when tracking is off' is false: switching X10 mode on and off leaves tracking on (negation proved)."
  },
  {
   "property": "C60",
   "status": "proved",
   "theorems": [
    "Verif.Props.Vte.C60_palette",
    "Verif.Props.Vte.C60_select",
    "Verif.Props.Vte.C60_colours",
    "Verif.Props.Vte.C60_custom"
   ],
   "note": ""
  },
  {
   "property": "C61",
   "status": "proved",
   "theorems": [
    "Verif.Props.Ring.C61_queue",
    "Verif.Props.Ring.C61_failed_push"
   ],
   "note": ""
  },
  {
   "property": "C62",
   "status": "proved",
   "theorems": [
    "Verif.Props.Pty.C62_prefix",
    "Verif.Props.Pty.C62_write",
    "Verif.Props.Pty.C62_drained",
    "Verif.Props.Pty.C62_closed",
    "Verif.Props.Pty.C62_false_return"
   ],
   "note": "Proved as stated. C62_false_return additionally refutes a stronger claim about the return value of shl_pty_dispatch."
  },
  {
   "property": "C63",
   "status": "partial",
   "theorems": [
    "Verif.Props.Arr.C63_list_partial",
    "Verif.Props.Arr.C63_zeroed_partial",
    "Verif.Props.Arr.C63_false_zresize"
   ],
   "note": "False of the code: shl_array_zresize within the capacity leaves old bytes in the new elements; negation proved. Everything else proved, and zresize whenever it reallocates."
  },
  {
   "property": "C64",
   "status": "partial",
   "theorems": [
    "Verif.Props.Htable.C64_bag_partial",
    "Verif.Props.Htable.C64_ulong_partial",
    "Verif.Props.Htable.C64_false"
   ],
   "note": "False of the code for arbitrary pointers: one whose bits are all bits of the first pointer inserted, without its highest bit, is stored as a marker and lost; negation proved. Proved for every history, hash function and failing allocation, for all sets of pointers without such a pair (any pointers between two powers of two), up to 3*2^28 inserts."
  },
  {
   "property": "C65",
   "status": "partial",
   "theorems": [
    "Verif.Props.Vte.C65_false",
    "Verif.Props.Vte.C65_false_wrap",
    "Verif.Props.Vte.C65_column_effect",
    "Verif.Props.Vte.C65_column_partial",
    "Verif.Props.Vte.C65_row_effect",
    "Verif.Props.Vte.C65_row_partial"
   ],
   "note": "False of the code: in origin mode CHA adds the top margin to the row, and VPA ends a pending wrap; negations proved, true otherwise."
  },
  {
   "property": "C66",
   "status": "partial",
   "theorems": [
    "Verif.Props.Vte.C66_false",
    "Verif.Props.Vte.C66_false_escape",
    "Verif.Props.Vte.C66_csi_partial",
    "Verif.Props.Vte.C66_esc_partial",
    "Verif.Props.Vte.C66_modes_partial",
    "Verif.Props.Vte.C66_request_partial"
   ],
   "note": "Proved for every unimplemented final character, escape sequence and mode. Sequences that differ from an implemented one in an intermediate character only are executed as the implemented one (CSI SP A, ESC # 8); negations proved."
  },
  {
   "property": "C67",
   "status": "proved",
   "theorems": [
    "Verif.Props.Screen.C67_set_flags",
    "Verif.Props.Screen.C67_reset_flags",
    "Verif.Props.Screen.C67_tabstop",
    "Verif.Props.Screen.C67_set_margins",
    "Verif.Props.Screen.C67_reset"
   ],
   "note": ""
  },
  {
   "property": "C68",
   "status": "proved",
   "theorems": [
    "Verif.Props.Pty.C68_input"
   ],
   "note": ""
  },
  {
   "property": "C69",
   "status": "proved",
   "theorems": [
    "Verif.Props.Screen.C69_ids"
   ],
   "note": ""
  },
  {
   "property": "C70",
   "status": "proved",
   "theorems": [
    "Verif.Props.Screen.C70_origin",
    "Verif.Props.Screen.C70_drawn"
   ],
   "note": ""
  },
  {
   "property": "C71",
   "status": "proved",
   "theorems": [
    "Verif.Props.Screen.C71_settings",
    "Verif.Props.Screen.C71_history"
   ],
   "note": ""
  },
  {
   "property": "C72",
   "status": "proved",
   "theorems": [
    "Verif.Props.Vte.C72_answers",
    "Verif.Props.Vte.C72_harmless"
   ],
   "note": ""
  },
  {
   "property": "C73",
   "status": "proved",
   "theorems": [
    "Verif.Props.Vte.C73_modes"
   ],
   "note": ""
  },
  {
   "property": "C74",
   "status": "proved",
   "theorems": [
    "Verif.Props.Vte.C74_source"
   ],
   "note": ""
  },
  {
   "property": "C75",
   "status": "proved",
   "theorems": [
    "Verif.Props.Vte.C75_kept"
   ],
   "note": ""
  },
  {
   "property": "C76",
   "status": "proved",
   "theorems": [
    "Verif.Props.Vte.C76_c0",
    "Verif.Props.Vte.C76_c1",
    "Verif.Props.Vte.C76_forms",
    "Verif.Props.Vte.C76_can"
   ],
   "note": ""
  },
  {
   "property": "C77",
   "status": "proved",
   "theorems": [
    "Verif.Props.Vte.C77_editing",
    "Verif.Props.Vte.C77_margins"
   ],
   "note": ""
  },
  {
   "property": "C78",
   "status": "partial",
   "theorems": [
    "Verif.Props.Vte.C78_false",
    "Verif.Props.Vte.C78_vpr_effect",
    "Verif.Props.Vte.C78_vpr_partial"
   ],
   "note": "False of the code in origin mode with a top margin: the margin is added once more (negation proved). Proved outside of origin mode."
  },
  {
   "property": "C79",
   "status": "proved",
   "theorems": [
    "Verif.Props.Vte.C79_modes",
    "Verif.Props.Vte.C79_meaning",
    "Verif.Props.Vte.C79_cursor",
    "Verif.Props.Vte.C79_keypad"
   ],
   "note": ""
  },
  {
   "property": "C80",
   "status": "proved",
   "theorems": [
    "Verif.Props.Vte.C80_identity"
   ],
   "note": ""
  },
  {
   "property": "C81",
   "status": "proved",
   "theorems": [
    "Verif.Props.Screen.C81_no_dangling",
    "Verif.Props.Screen.C81_step",
    "Verif.Props.Screen.C81_owned",
    "Verif.Props.Screen.C81_no_leak",
    "Verif.Props.Screen.C81_released",
    "Verif.Props.Screen.C81_failed_new",
    "Verif.Props.Screen.C81_draw",
    "Verif.Props.Screen.C81_copy",
    "Verif.Props.Screen.C81_same"
   ],
   "note": ""
  },
  {
   "property": "C82",
   "status": "proved",
   "theorems": [
    "Verif.Props.Vte.C82_safe",
    "Verif.Props.Vte.C82_vte",
    "Verif.Props.Vte.C82_screen",
    "Verif.Props.Vte.C82_no_leak",
    "Verif.Props.Vte.C82_released"
   ],
   "note": ""
  },
  {
   "property": "C83",
   "status": "partial",
   "theorems": [
    "Verif.Props.Vte.C83_told",
    "Verif.Props.Vte.C83_coordinates",
    "Verif.Props.Vte.C83_modes",
    "Verif.Props.Vte.C83_stop_partial",
    "Verif.Props.Vte.C83_stop_false_encoding",
    "Verif.Props.Vte.C83_stop_false_x10",
    "Verif.Props.Vte.C83_stop_false_reset"
   ],
   "note": "Proved over all histories with the callback set: the last call covers every event that can be reported and names the coordinates that are needed; the effect of every list of mouse modes. The converse is false of the code (three negations proved): after CSI ? 1006 l, CSI ? 9 l or a reset the callback has last been told to track although nothing is reported; proved where CSI ? 1002 l or 1003 l come before the encoding is switched off."
  },
  {
   "property": "C84",
   "status": "proved",
   "theorems": [
    "Verif.Vte.C84_level",
    "Verif.Vte.C84_decoding"
   ],
   "note": ""
  },
  {
   "property": "C85",
   "status": "partial",
   "theorems": [
    "Verif.Props.Vte.C85_canvas_partial",
    "Verif.Props.Vte.C85_after_reset",
    "Verif.Props.Vte.C85_session_partial",
    "Verif.Props.Vte.C85_plain",
    "Verif.Props.Vte.C85_region_false",
    "Verif.Props.Vte.C85_wide_false",
    "Verif.Props.Vte.C85_tab_false",
    "Verif.Props.Vte.C85_origin_false",
    "Verif.Props.Vte.C85_restore_false",
    "Verif.Props.Vte.C85_leave_false",
    "Verif.Props.Vte.C85_blank_false",
    "Verif.Props.Vte.C85_latin_false",
    "Verif.Props.Vte.C85_position_false"
   ],
   "note": "Refinement of a reference terminal with modes, tab stops, saved cursor, alternate screen, line drawing, cursor visibility, keyboard modes and answers to requests, proved for every sequence of plain commands (C85_plain), and for all commands except in situations in which the code is wrong (negations proved): a line feed below the scroll region on the last row (or a reverse line feed above it on the first row) scrolls the region, a wide character in the last column is cut off instead of wrapped, a tab stop is set, cleared or looked for backwards right after the last column was written, columns are addressed or positions restored in origin mode, a position right after the last column is restored, the blank of the line drawing set is not shown (C85_blank_false), and after G1 has been designated Latin-1 characters are shown as characters of G1 (C85_latin_false), and the position is asked for right after the last column was written or in origin mode (C85_position_false)."
  },
  {
   "property": "C86",
   "status": "proved",
   "theorems": [
    "Verif.Props.Vte.C86_between",
    "Verif.Props.Vte.C86_can",
    "Verif.Props.Vte.C86_reset",
    "Verif.Props.Vte.C86_session"
   ],
   "note": ""
  },
  {
   "property": "C87",
   "status": "proved",
   "theorems": [
    "Verif.Props.Vte.C87_input",
    "Verif.Props.Vte.C87_screen"
   ],
   "note": ""
  },
  {
   "property": "C88",
   "status": "proved",
   "theorems": [
    "Verif.PtyLife.C88_safe",
    "Verif.PtyLife.C88_descriptors",
    "Verif.PtyLife.C88_nothing_left",
    "Verif.PtyLife.C88_others",
    "Verif.PtyLife.C88_open_failed"
   ],
   "note": ""
  },
  {
   "property": "C89",
   "status": "partial",
   "theorems": [
    "Verif.PtyLife.C89_child_partial",
    "Verif.PtyLife.C89_closed_false",
    "Verif.PtyLife.C89_false",
    "Verif.PtyLife.C89_no_master"
   ],
   "note": "False of the code for a caller that has closed its descriptors 0, 1 and 2 (proved for every such caller): the parent gets no handle, the child has no standard error. Proved for every other caller; that no master side is passed on is proved for all."
  },
  {
   "property": "C90",
   "status": "partial",
   "theorems": [
    "Verif.Props.Bridge.C90_safe",
    "Verif.Props.Bridge.C90_event_partial",
    "Verif.Props.Bridge.C90_lost_false",
    "Verif.Props.Bridge.C90_false",
    "Verif.Props.Bridge.C90_delivered_partial",
    "Verif.Props.Bridge.C90_polling",
    "Verif.Props.Bridge.C90_removed_false",
    "Verif.Props.Bridge.C90_removed_partial"
   ],
   "note": "False of the code: the event is lost when more than 32766 bytes wait to be read, because a re-arm uses EPOLL_CTL_ADD (proved for every such state), and a removed pty can come back. Proved: there is an event whenever the last dispatch read everything; polling instead of waiting reads everything; removal holds for all other calls."
  },
  {
   "property": "C91",
   "status": "partial",
   "theorems": [
    "Verif.Props.Gtk.C91_safe_partial",
    "Verif.Props.Gtk.C91_false",
    "Verif.Props.Gtk.C91_false_abs"
   ],
   "note": "False of the code for windows with 2^31 bytes of pixels or more, as the size of the buffer is computed with 32 bits (proved with witnesses). Proved for all others, over every sequence of resizes, font changes and drawings."
  },
  {
   "property": "C92",
   "status": "proved",
   "theorems": [
    "Verif.Props.Gtk.C92_nearest",
    "Verif.Props.Gtk.C92_between",
    "Verif.Props.Gtk.C92_blend"
   ],
   "note": ""
  },
  {
   "property": "C93",
   "status": "partial",
   "theorems": [
    "Verif.Props.Gtk.C93_incremental_partial",
    "Verif.Props.Gtk.C93_cells_partial",
    "Verif.Props.Gtk.C93_picture_partial",
    "Verif.Props.Gtk.C93_false_font",
    "Verif.Props.Gtk.C93_false_frames",
    "Verif.Props.Gtk.C93_false_covered",
    "Verif.Props.Gtk.C93_false_orphan",
    "Verif.Props.Gtk.C93_false_overlap",
    "Verif.Props.Gtk.C93_false_bold"
   ],
   "note": "False of the code after a font change, around wide characters that were partly overwritten, for bold faces with other cells, and after show-dirty was on (six witnesses proved). Proved for all sessions whose drawings are tidy in these respects: incremental drawing equals full drawing, and the colour of each pixel is what the screen's cell demands."
  },
  {
   "property": "C94",
   "status": "partial",
   "theorems": [
    "Verif.Props.Gtk.C94_partial",
    "Verif.Props.Gtk.C94_false_early",
    "Verif.Props.Gtk.C94_false_font"
   ],
   "note": "False of the code: before the first configure event the pty is 1 by 1 and the screen 80 by 24, and after a font change the screen keeps its size (two witnesses). Proved: from a resize with a font on, the sizes agree until the next resize or font change."
  },
  {
   "property": "C95",
   "status": "partial",
   "theorems": [
    "Verif.Props.Gtk.C95_marked_partial",
    "Verif.Props.Gtk.C95_double_partial",
    "Verif.Props.Gtk.C95_drag_partial",
    "Verif.Props.Gtk.C95_click_partial",
    "Verif.Props.Gtk.C95_release",
    "Verif.Props.Gtk.C95_false_single",
    "Verif.Props.Gtk.C95_false_outside",
    "Verif.Props.Gtk.C95_false_clock"
   ],
   "note": "False of the code for a drag in one motion, for drags that leave the window on the left or at the top (undefined conversion), and for clicks near the wrap of the clock (three witnesses). Proved for every path with at least two motions at positions that are not negative, for every path after a double or triple click, and for clicks elsewhere."
  },
  {
   "property": "C96",
   "status": "proved",
   "theorems": [
    "Verif.Props.Gtk.C96_flow",
    "Verif.Props.Gtk.C96_scheduled",
    "Verif.Props.Gtk.C96_output"
   ],
   "note": ""
  },
  {
   "property": "C97",
   "status": "partial",
   "theorems": [
    "Verif.Props.Gtk.C97_scroll",
    "Verif.Props.Gtk.C97_typed_partial"
   ],
   "note": "Scrolling keys fully proved. Typed keys for no local echo and, in 7-bit mode, Latin-1 only: outside these C55 and C56 are false of the code."
  },
  {
   "property": "C98",
   "status": "proved",
   "theorems": [
    "Verif.Props.Gtk.C98_only",
    "Verif.Props.Gtk.C98_title"
   ],
   "note": ""
  },
  {
   "property": "C99",
   "status": "partial",
   "theorems": [
    "Verif.Props.Gtk.C99_partial",
    "Verif.Props.Gtk.C99_false"
   ],
   "note": "False of the code for the property sb-size (witness). Proved for all other events."
  },
  {
   "property": "C100",
   "status": "partial",
   "theorems": [
    "Verif.Props.Gtk.C100_created",
    "Verif.Props.Gtk.C100_partial",
    "Verif.Props.Gtk.C100_false_mouse",
    "Verif.Props.Gtk.C100_false_window"
   ],
   "note": "False of the code for mouse positions left of or above the window and for windows with 2^31 bytes of pixels or more (two witnesses). Proved for everything else; what remains are the undefined behaviours of the library in C40 and C61."
  },
  {
   "property": "C101",
   "status": "partial",
   "theorems": [
    "Verif.Props.Vte.C101_scrollback_partial",
    "Verif.Props.Vte.C101_roll_partial",
    "Verif.Props.Vte.C101_roll",
    "Verif.Props.Vte.C101_look_back",
    "Verif.Props.Vte.C101_wide_false"
   ],
   "note": "C101_roll proves the whole claim after a reset for characters of one column, and C101_look_back for the drawing. With wide characters it is false of the code (C101_wide_false: one that does not fit is cut off); C101_roll_partial and C101_scrollback_partial hold for all commands outside the situations of C85."
  },
  {
   "property": "C102",
   "status": "proved",
   "theorems": [
    "Verif.Props.Gtk.C102_cells",
    "Verif.Props.Gtk.C102_start",
    "Verif.Props.Gtk.C102_next",
    "Verif.Props.Gtk.C102_draw",
    "Verif.Props.Gtk.C102_program"
   ],
   "note": ""
  },
  {
   "property": "C103",
   "status": "partial",
   "theorems": [
    "Verif.Props.Unicode.C103_columns_partial",
    "Verif.Props.Unicode.C103_new_false",
    "Verif.Props.Unicode.C103_exactly_partial",
    "Verif.Props.Unicode.C103_cursor_partial"
   ],
   "note": "False of the code for characters that were added after Unicode 9.0: new marks take one column instead of none, new wide characters (emoji) one instead of two (C103_new_false). C103_exactly_partial shows that these and five changed characters are the only code points, assigned or not, on which the code differs from Unicode 15.0."
  },
  {
   "property": "C104",
   "status": "partial",
   "theorems": [
    "Verif.Props.Gtk.C104_programs_partial",
    "Verif.Props.Gtk.C104_exit",
    "Verif.Props.Gtk.C104_lost_partial",
    "Verif.Props.Gtk.C104_lost_false"
   ],
   "note": "False of the code: output that has not been read when the end of the child is noticed is lost (C104_lost_false, C104_lost_partial). C104_programs_partial proves the rest of the claim for every sequence of events, and the whole claim for those in which everything was read at each end of a program."
  },
  {
   "property": "C105",
   "status": "proved",
   "theorems": [
    "Verif.Props.Strtab.C105_strings",
    "Verif.Props.Strtab.C105_reuse"
   ],
   "note": ""
  },
  {
   "property": "C106",
   "status": "partial",
   "theorems": [
    "Verif.Props.Macro.C106_mult",
    "Verif.Props.Macro.C106_align_partial",
    "Verif.Props.Macro.C106_align_false"
   ],
   "note": "Multiplications proved in full. SHL_ALIGN_POWER2 is undefined for 0, 1 and above 2^63, where its comment promises a value (C106_align_false); proved for all other arguments."
  },
  {
   "property": "C107",
   "status": "partial",
   "theorems": [
    "Verif.Gtk.Life.C107_safe",
    "Verif.Gtk.Life.C107_sources",
    "Verif.Gtk.Life.C107_answers",
    "Verif.Gtk.Life.C107_released",
    "Verif.Gtk.Life.C107_finalize",
    "Verif.Gtk.Life.C107_waited_partial",
    "Verif.Gtk.Life.C107_waited_false"
   ],
   "note": "Everything except the last sentence is proved in full. A child that runs when its widget is destroyed is never waited for (C107_waited_false); all others are (C107_waited_partial)."
  },
  {
   "property": "C108",
   "status": "proved",
   "theorems": [
    "Verif.Props.Gtk.C108_typed",
    "Verif.Props.Gtk.C108_paged",
    "Verif.Props.Gtk.C108_printed",
    "Verif.Props.Gtk.C108_session",
    "Verif.Props.Gtk.C108_program"
   ],
   "note": ""
  },
  {
   "property": "C109",
   "status": "partial",
   "theorems": [
    "Verif.Props.Gtk.C109_inner_partial",
    "Verif.Props.Gtk.C109_frame_partial",
    "Verif.Props.Gtk.C109_changed_partial",
    "Verif.Props.Gtk.C109_off_false"
   ],
   "note": "Frames and all other pixels are proved for tidy drawings (see C93), after any history. The last sentence is false of the code: the frames stay until the cells change (C109_off_false)."
  },
  {
   "property": "C110",
   "status": "partial",
   "theorems": [
    "Verif.Props.Vte.C110_input",
    "Verif.Props.Vte.C110_key",
    "Verif.Props.Vte.C110_mouse",
    "Verif.Props.Vte.C110_call_partial",
    "Verif.Props.Vte.C110_history_partial",
    "Verif.Props.Vte.C110_false"
   ],
   "note": "Proved for input, keys and mouse modes SGR and pixel without restriction (C110_input, C110_key, C110_mouse), and for X10 reports up to column and row 95. Beyond that the claim is false of the code (C110_false)."
  },
  {
   "property": "C111",
   "status": "partial",
   "theorems": [
    "Verif.Props.Gtk.C111_initial",
    "Verif.Props.Gtk.C111_set_partial",
    "Verif.Props.Gtk.C111_unknown",
    "Verif.Props.Gtk.C111_others",
    "Verif.Props.Gtk.C111_kept",
    "Verif.Props.Gtk.C111_scrollback",
    "Verif.Props.Gtk.C111_faces",
    "Verif.Props.Gtk.C111_names",
    "Verif.Props.Gtk.C111_frames",
    "Verif.Props.Gtk.C111_works_partial",
    "Verif.Props.Gtk.C111_false",
    "Verif.Props.Gtk.C111_false_null",
    "Verif.Props.Gtk.C111_false_font",
    "Verif.Props.Gtk.C111_false_unknown"
   ],
   "note": "Proved for all values that exist (C111_set_partial) and all given strings (C111_works_partial); the invariants hold without restriction. False for NULL strings, which crash or end the program (C111_false, C111_false_font), and for unknown strings, which read back as default (C111_false_unknown)."
  },
  {
   "property": "C112",
   "status": "partial",
   "theorems": [
    "Verif.Props.Gtk.C112_area",
    "Verif.Props.Gtk.C112_margin",
    "Verif.Props.Gtk.C112_blank",
    "Verif.Props.Gtk.C112_copied",
    "Verif.Props.Gtk.C112_defined_partial",
    "Verif.Props.Gtk.C112_program",
    "Verif.Props.Gtk.C112_false_font",
    "Verif.Props.Gtk.C112_false_half",
    "Verif.Props.Gtk.C112_false"
   ],
   "note": "The margin, the copy of the cells and windows without faces are proved for all histories; that each pixel was written only for neat drawings since the last resize (C112_defined_partial). Otherwise it is false of the code: uninitialised memory is shown after a change of the font and for halves of wide characters (C112_false_font, C112_false_half)."
  },
  {
   "property": "C113",
   "status": "partial",
   "theorems": [
    "Verif.Props.PtyNest.C113_order",
    "Verif.Props.PtyNest.C113_closed",
    "Verif.Props.PtyNest.C113_safe_partial",
    "Verif.Props.PtyNest.C113_dropped",
    "Verif.Props.PtyNest.C113_false",
    "Verif.Props.PtyNest.C113_buffer_partial",
    "Verif.Props.PtyNest.C113_buffer_false",
    "Verif.Props.PtyNest.C113_returned"
   ],
   "note": "Order, closing and returned values are proved for all programs; memory safety for programs whose callbacks give back no reference they did not take, the stability of the argument up to a nested dispatch. Otherwise false of the code (C113_dropped, C113_false, C113_buffer_false)."
  },
  {
   "property": "C114",
   "status": "partial",
   "theorems": [
    "Verif.Props.Gtk.C114_discipline",
    "Verif.Props.Gtk.C114_program_partial",
    "Verif.Props.Gtk.C114_default",
    "Verif.Props.Gtk.C114_false_delete",
    "Verif.Props.Gtk.C114_false_newline"
   ],
   "note": "Proved for the default setting of the Backspace key and without new-line mode, for whole sessions. Otherwise false (C114_false_delete, C114_false_newline)."
  },
  {
   "property": "C115",
   "status": "partial",
   "theorems": [
    "Verif.Props.Gtk.C115_opened",
    "Verif.Props.Gtk.C115_refused",
    "Verif.Props.Gtk.C115_version",
    "Verif.Props.Gtk.C115_works_partial",
    "Verif.Props.Gtk.C115_windows_partial",
    "Verif.Props.Gtk.C115_own",
    "Verif.Props.Gtk.C115_stopped",
    "Verif.Props.Gtk.C115_false_fork",
    "Verif.Props.Gtk.C115_false"
   ],
   "note": "Proved for all options and all states of the application. False for the environment and directory of commands after the first (C115_false), and the application ends if no pty can be opened (C115_false_fork)."
  }
 ]
}
STATUS = {
 "C04": ("partial", "False of the code: E0 80 9B (any platform) and C0 9B (signed char) decode to ESC. Negation proved; partial theorem for inputs without overlong starts."),
 "C08": ("partial", "False of the code: writing a wide character in insert mode on a one-column screen moves an enormous block, and tab_left reads beyond the tab ruler after a wide character at the last column. Both negations proved; every other history is proved safe."),
 "C18": ("partial", "False of the code for erase_chars with counts near 2^32 (32-bit sum wraps, nothing erased); negation proved. All other erasures proved in full."),
 "C21": ("partial", "tab_left is undefined behaviour when the cursor is two beyond the last column (see C08); negation proved. Everything else proved."),
 "C23": ("partial", "False of the code in relative origin mode when margin_top + y wraps at 2^32; negation proved, the rest proved."),
 "C37": ("partial", "False of the code for sb_page_up/down when pages * rows wraps at 2^32; negation proved, the rest proved."),
 "C38": ("partial", "False of the code: the reported position drifts on eviction and fixed-position scrolling; negations proved. A right report is kept by every call except sb_reset, a set_max_sb that drops lines, and calls that drop lines under a scrolled-back view; any line pushed on the live screen repairs it."),
 "C24": ("partial", "False of the code for a wide character on a one-column screen (the length of a memmove wraps); negation proved. Proved for all characters not wider than the screen."),
 "C28": ("partial", "False of the code: set_def_attr changes cells beyond the end of scrollback lines without marking them, and resize does not mark the column a pending-wrap cursor leaves. Both negations proved; all histories of other calls are proved, including overflow, and those with set_def_attr whenever the second drawing returns another age than the first."),
 "C32": ("partial", "False of the code: a selection starting right of the last character of its first row loses the newline after that row; negation proved. The exact result is proved for all other selections."),
 "C33": ("partial", "False of the code: copying after scrolling reads lines[-1] or beyond the screen, and rows of four-byte characters overflow the buffer; negations proved. Safe for selections at existing cells with characters of at most three bytes."),
 "C34": ("partial", "False of the code for two orders of endpoints in the scrollback; negations proved, symmetric otherwise."),
 "C63": ("partial", "False of the code: shl_array_zresize within the capacity leaves old bytes in the new elements; negation proved. Everything else proved, and zresize whenever it reallocates."),
 "C40": ("partial", "False of the code: csi_argv[16] is read when the 16th SGR parameter is 38 or 48, a back tab after a wide character in the last column reads beyond the tab ruler, and a wide character in insert mode on a one-column screen. Negations proved; everything else is proved safe."),
 "C43": ("partial", "False of the code: SUB prints an inverted question mark, and ESC and CAN are swallowed inside an unfinished UTF-8 character. Negations proved; CAN, SUB and ESC proved to resynchronise between characters."),
 "C53": ("partial", "False of the code where char is signed: in 8-bit mode bytes above 0x7f are sign-extended and lost. Negation proved; 7-bit mode proved in full, 8-bit mode for unsigned char or bytes below 0x80."),
 "C62": ("proved", "Proved as stated. C62_false_return additionally refutes a stronger claim about the return value of shl_pty_dispatch."),
 "C42": ("partial", "False of the code in the middle of a UTF-8 character (ESC is swallowed); negation proved. Proved in every other state, in and out of origin mode."),
 "C46": ("partial", "The replies are proved in full. Sending the position back does not restore it after the last column has been written or in origin mode; both negations proved, true otherwise."),
 "C64": ("partial", "False of the code for arbitrary pointers: one whose bits are all bits of the first pointer inserted, without its highest bit, is stored as a marker and lost; negation proved. Proved for every history, hash function and failing allocation, for all sets of pointers without such a pair (any pointers between two powers of two), up to 3*2^28 inserts."),
 "C65": ("partial", "False of the code: in origin mode CHA adds the top margin to the row, and VPA ends a pending wrap; negations proved, true otherwise."),
 "C66": ("partial", "Proved for every unimplemented final character, escape sequence and mode. Sequences that differ from an implemented one in an intermediate character only are executed as the implemented one (CSI SP A, ESC # 8); negations proved."),
    "C44": ("partial", "Proved for strings of printable characters of at most 127 bytes, and what happens to all others (C44_delivered_partial, C44_bounded, C44_cut). False for strings with control characters, which are dropped (C44_false)."),
 "C45": ("partial", "False of the code for a 16th parameter 38 or 48 (csi_argv[16] is read); negation proved. Proved for all other lists of parameters, with omitted parameters ignored as in the code; that they should mean 0 is refuted."),
 "C47": ("partial", "False of the code: with origin mode on at ESC 8 the cursor is moved by the margin, a pending wrap is lost, and designated character sets are not saved; three negations proved. The exact effect of ESC 7 and ESC 8 is proved for every history in between, and the claim where none of these applies."),
 "C48": ("partial", "tsm_vte_hard_reset proved from every state. ESC c is swallowed in the middle of a UTF-8 character (negation proved); proved in every other state."),
 "C49": ("partial", "tsm_vte_reset proved from every state. CSI ! p is lost in the middle of a UTF-8 character (negation proved); proved in every other state."),
 "C54": ("partial", "The text of the main screen is proved to come back after any output. The cursor does not if origin mode is on when leaving or a wrap was pending when entering; both negations proved, and the exact position in every case."),
 "C55": ("partial", "For all keysyms, modifiers, modes and characters: one string is sent or nothing happens, and the string is that of an independent description of the keyboard. Excluded, with the negations proved: characters beyond U+00FF in 7-bit mode (a key can send an unrelated ASCII character) and values beyond 0x7fffffff (NUL is sent)."),
 "C56": ("partial", "Proved without local echo, and that no prefix is left pending in every state. False with local echo (negation proved): the echo of ESC Z produces a reply that takes the prefix."),
 "C57": ("partial", "Reports of buttons are proved to decode to button, modifiers and position for positions below 9999999, also for negative ones; reports of motions to the position. False for motions (modifiers lost) and for large positions (24-byte buffer); both negations proved."),
 "C58": ("partial", "Proved for all positions below 2^32-33 and values of button and modifiers below 224; beyond, a byte wraps to NUL and ends the report (negations proved)."),
 "C59": ("partial", "Filtering of motions, and no repetition of a cell over all sequences of events (SGR mode, no local echo) are proved. 'Nothing is reported when tracking is off' is false: switching X10 mode on and off leaves tracking on (negation proved)."),
 "C06": ("partial", "False of the code: the index is off by one, so the symbol returned by a successful append never decomposes to its string, whatever happens before and after (C06_false_always). Proved: the number below the returned symbol decomposes to the right string at all later times."),
 "C07": ("partial", "False of the code when growing the hash table or the index fails: an incremented pointer is passed to free (negation proved). Proved for all histories in which only the allocation of strings may fail, with addresses that can share a hash table (see C64) and at most 3*2^28 calls."),
 "C78": ("partial", "False of the code in origin mode with a top margin: the margin is added once more (negation proved). Proved outside of origin mode."),
 "C83": ("partial", "Proved over all histories with the callback set: the last call covers every event that can be reported and names the coordinates that are needed; the effect of every list of mouse modes. The converse is false of the code (three negations proved): after CSI ? 1006 l, CSI ? 9 l or a reset the callback has last been told to track although nothing is reported; proved where CSI ? 1002 l or 1003 l come before the encoding is switched off."),
 "C89": ("partial", "False of the code for a caller that has closed its descriptors 0, 1 and 2 (proved for every such caller): the parent gets no handle, the child has no standard error. Proved for every other caller; that no master side is passed on is proved for all."),
 "C90": ("partial", "False of the code: the event is lost when more than 32766 bytes wait to be read, because a re-arm uses EPOLL_CTL_ADD (proved for every such state), and a removed pty can come back. Proved: there is an event whenever the last dispatch read everything; polling instead of waiting reads everything; removal holds for all other calls."),
 "C91": ("partial", "False of the code for windows with 2^31 bytes of pixels or more, as the size of the buffer is computed with 32 bits (proved with witnesses). Proved for all others, over every sequence of resizes, font changes and drawings."),
 "C93": ("partial", "False of the code after a font change, around wide characters that were partly overwritten, for bold faces with other cells, and after show-dirty was on (six witnesses proved). Proved for all sessions whose drawings are tidy in these respects: incremental drawing equals full drawing, and the colour of each pixel is what the screen's cell demands."),
 "C94": ("partial", "False of the code: before the first configure event the pty is 1 by 1 and the screen 80 by 24, and after a font change the screen keeps its size (two witnesses). Proved: from a resize with a font on, the sizes agree until the next resize or font change."),
 "C95": ("partial", "False of the code for a drag in one motion, for drags that leave the window on the left or at the top (undefined conversion), and for clicks near the wrap of the clock (three witnesses). Proved for every path with at least two motions at positions that are not negative, for every path after a double or triple click, and for clicks elsewhere."),
 "C97": ("partial", "Scrolling keys fully proved. Typed keys for no local echo and, in 7-bit mode, Latin-1 only: outside these C55 and C56 are false of the code."),
 "C99": ("partial", "False of the code for the property sb-size (witness). Proved for all other events."),
 "C100": ("partial", "False of the code for mouse positions left of or above the window and for windows with 2^31 bytes of pixels or more (two witnesses). Proved for everything else; what remains are the undefined behaviours of the library in C40 and C61."),
 "C101": ("partial", "C101_roll proves the whole claim after a reset for characters of one column, and C101_look_back for the drawing. With wide characters it is false of the code (C101_wide_false: one that does not fit is cut off); C101_roll_partial and C101_scrollback_partial hold for all commands outside the situations of C85."),
 "C103": ("partial", "False of the code for characters that were added after Unicode 9.0: new marks take one column instead of none, new wide characters (emoji) one instead of two (C103_new_false). C103_exactly_partial shows that these and five changed characters are the only code points, assigned or not, on which the code differs from Unicode 15.0."),
 "C104": ("partial", "False of the code: output that has not been read when the end of the child is noticed is lost (C104_lost_false, C104_lost_partial). C104_programs_partial proves the rest of the claim for every sequence of events, and the whole claim for those in which everything was read at each end of a program."),
 "C106": ("partial", "Multiplications proved in full. SHL_ALIGN_POWER2 is undefined for 0, 1 and above 2^63, where its comment promises a value (C106_align_false); proved for all other arguments."),
 "C107": ("partial", "Everything except the last sentence is proved in full. A child that runs when its widget is destroyed is never waited for (C107_waited_false); all others are (C107_waited_partial)."),
 "C109": ("partial", "Frames and all other pixels are proved for tidy drawings (see C93), after any history. The last sentence is false of the code: the frames stay until the cells change (C109_off_false)."),
 "C110": ("partial", "Proved for input, keys and mouse modes SGR and pixel without restriction (C110_input, C110_key, C110_mouse), and for X10 reports up to column and row 95. Beyond that the claim is false of the code (C110_false)."),
 "C111": ("partial", "Proved for all values that exist (C111_set_partial) and all given strings (C111_works_partial); the invariants hold without restriction. False for NULL strings, which crash or end the program (C111_false, C111_false_font), and for unknown strings, which read back as default (C111_false_unknown)."),
 "C112": ("partial", "The margin, the copy of the cells and windows without faces are proved for all histories; that each pixel was written only for neat drawings since the last resize (C112_defined_partial). Otherwise it is false of the code: uninitialised memory is shown after a change of the font and for halves of wide characters (C112_false_font, C112_false_half)."),
 "C113": ("partial", "Order, closing and returned values are proved for all programs; memory safety for programs whose callbacks give back no reference they did not take, the stability of the argument up to a nested dispatch. Otherwise false of the code (C113_dropped, C113_false, C113_buffer_false)."),
 "C114": ("partial", "Proved for the default setting of the Backspace key and without new-line mode, for whole sessions. Otherwise false (C114_false_delete, C114_false_newline)."),
 "C115": ("partial", "Proved for all options and all states of the application. False for the environment and directory of commands after the first (C115_false), and the application ends if no pty can be opened (C115_false_fork)."),
 "C85": ("partial", "Refinement of a reference terminal with modes, tab stops, saved cursor, alternate screen, line drawing, cursor visibility, keyboard modes and answers to requests, proved for every sequence of plain commands (C85_plain), and for all commands except in situations in which the code is wrong (negations proved): a line feed below the scroll region on the last row (or a reverse line feed above it on the first row) scrolls the region, a wide character in the last column is cut off instead of wrapped, a tab stop is set, cleared or looked for backwards right after the last column was written, columns are addressed or positions restored in origin mode, a position right after the last column is restored, the blank of the line drawing set is not shown (C85_blank_false), and after G1 has been designated Latin-1 characters are shown as characters of G1 (C85_latin_false), and the position is asked for right after the last column was written or in origin mode (C85_position_false)."),
}

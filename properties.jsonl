{"id": "C01", "title": "UTF-8 round trip over whole streams", "statement": "Encoding any list of code points with tsm_ucs4_to_utf8 and feeding the concatenated bytes to a UTF-8 machine that is not in the middle of a sequence yields exactly the encodable code points, in order, each accepted exactly at its last byte, with no replacement character in between.", "quantifier": "for every list of code points, every start-like machine state, and both signednesses of plain char", "why_tests_cant": "There are 1.1 million code points and unboundedly many concatenations; a table of samples says nothing about the boundary code points that were not sampled.", "anchors": ["src/tsm/tsm-unicode.c:tsm_ucs4_to_utf8", "src/tsm/tsm-unicode.c:tsm_utf8_mach_feed", "src/tsm/tsm-unicode.c:tsm_utf8_mach_get"]}
{"id": "C02", "title": "UTF-8 encoder emits only well formed, shortest-form, injective output", "statement": "tsm_ucs4_to_utf8 writes between 0 and 4 bytes; it writes 0 bytes exactly for surrogates, values above 0x10FFFF, U+FDD0..U+FDEF and code points ending in FFFE/FFFF; otherwise the bytes are the unique shortest UTF-8 form of the code point, and two different encodable code points never share an encoding or a prefix of one.", "quantifier": "for every 32-bit value (pairs of values for injectivity)", "why_tests_cant": "The claim covers all 2^32 arguments and all pairs of arguments.", "anchors": ["src/tsm/tsm-unicode.c:tsm_ucs4_to_utf8", "src/tsm/tsm-unicode.c:tsm_ucs4_to_utf8_alloc"]}
{"id": "C03", "title": "UTF-8 decoder resynchronises after arbitrary garbage", "statement": "After any byte string whatsoever, feeding one ASCII byte brings the decoder back in sync: every later well formed character is decoded correctly. So corrupt input can swallow at most one following ASCII character, and never desynchronises the terminal for good.", "quantifier": "for every prefix of arbitrary bytes and every following list of code points", "why_tests_cant": "Garbage prefixes are unbounded and cannot be enumerated.", "anchors": ["src/tsm/tsm-unicode.c:tsm_utf8_mach_feed"]}
{"id": "C04", "title": "ASCII and control characters only come from their own single byte", "statement": "A code point below 0x80 (in particular ESC and other control codes) is delivered to the terminal only when the input byte just fed is that very ASCII byte; overlong forms never smuggle one in.", "quantifier": "for every decoder state, every byte sequence and both signednesses of plain char", "why_tests_cant": "The offending overlong sequences are specific; a test with well formed text never sees them, and the C0/C1 check depends on the platform's char signedness.", "anchors": ["src/tsm/tsm-unicode.c:tsm_utf8_mach_feed", "src/tsm/tsm-unicode.c:tsm_utf8_mach_get"]}
{"id": "C05", "title": "Character width is always 0, 1 or 2 and equals the range-table meaning", "statement": "tsm_ucs4_get_width returns 2 exactly for code points inside a listed wide range that are not control or zero width, 0 exactly for NUL, control codes, zero-width code points and values outside the signed 31-bit range, and 1 otherwise; the binary search gives the same answer as a linear scan of the range table. The width of a symbol is that of its first character.", "quantifier": "for every 32-bit value and for every sorted disjoint range table", "why_tests_cant": "2^32 arguments; an off-by-one in the bisection shows only at particular table positions.", "anchors": ["src/tsm/tsm-unicode.c:tsm_ucs4_get_width", "external/wcwidth/wcwidth.c:intable", "external/wcwidth/wcwidth.c:wcwidth"]}
{"id": "C06", "title": "Combined symbols can be decomposed again", "statement": "A symbol obtained by appending a combining character to a symbol decomposes (tsm_symbol_get) to the original characters followed by the appended one.", "quantifier": "for every table history, every valid symbol and every appended character", "why_tests_cant": "Depends on the whole history of previous appends; the existing tests only cover NULL arguments.", "anchors": ["src/tsm/tsm-unicode.c:tsm_symbol_append", "src/tsm/tsm-unicode.c:tsm_symbol_get", "src/tsm/tsm-unicode.c:tsm_symbol_table_new"]}
{"id": "C07", "title": "Symbol table interns strings", "statement": "Appending the same character to symbols denoting the same string always returns the same symbol, symbols of different strings differ, and the length of a stored string never exceeds ten characters.", "quantifier": "for every sequence of append calls, with allocation failures anywhere", "why_tests_cant": "Interning is a property of histories of arbitrary length with hash collisions.", "anchors": ["src/tsm/tsm-unicode.c:tsm_symbol_append", "src/tsm/tsm-unicode.c:hash_ucs4", "src/tsm/tsm-unicode.c:cmp_ucs4"]}
{"id": "C08", "title": "No screen call reads or writes outside its buffers", "statement": "Starting from tsm_screen_new, no sequence of screen API calls with any arguments makes the library access a line, cell or tab-stop outside the allocated buffers.", "quantifier": "for every history of screen API calls with arbitrary arguments and any pattern of allocation failures", "why_tests_cant": "Out-of-bounds accesses depend on combinations of size, cursor, margins, modes and history that no finite test set covers.", "anchors": ["src/tsm/tsm-screen.c:tsm_screen_write", "src/tsm/tsm-screen.c:tsm_screen_resize", "src/tsm/tsm-screen.c:screen_write", "src/tsm/tsm-screen.c:tsm_screen_tab_left", "src/tsm/tsm-screen.c:screen_erase_region", "src/tsm/tsm-screen.c:screen_scroll_up"]}
{"id": "C09", "title": "The cursor always stays on the screen", "statement": "After any history of calls the reported cursor row is smaller than the height, and the reported column is at most width+1 (a value of at least the width means a pending wrap); scroll margins always satisfy top <= bottom < height.", "quantifier": "for every history of screen API calls", "why_tests_cant": "Invariant over unbounded histories.", "anchors": ["src/tsm/tsm-screen.c:move_cursor", "src/tsm/tsm-screen.c:tsm_screen_set_margins", "src/tsm/tsm-screen.c:tsm_screen_move_to", "src/tsm/tsm-screen.c:tsm_screen_resize"]}
{"id": "C10", "title": "A failed resize changes nothing visible and leaves a usable screen", "statement": "If tsm_screen_resize returns an error, whatever allocation failed, then size, cursor, margins, every visible cell, the scrollback and the selection are what they were, and every later call is still memory safe.", "quantifier": "for every reachable screen, every target size and every pattern of malloc/realloc failures (crash points)", "why_tests_cant": "Every one of the many allocation points can fail independently; tests do not inject allocation failure.", "anchors": ["src/tsm/tsm-screen.c:tsm_screen_resize", "src/tsm/tsm-screen.c:line_new", "src/tsm/tsm-screen.c:line_resize"]}
{"id": "C11", "title": "Writing a character changes exactly its cells", "statement": "tsm_screen_write of a character of width w>0 without insert mode stores it with the given attributes in the cell at the (wrapped) cursor position, marks the covered following cell, advances the cursor by w, and leaves every other visible cell as it was, except for the one-line scroll when wrapping past the bottom margin.", "quantifier": "for every reachable screen, character and attribute", "why_tests_cant": "Frame condition over all cells of all screens.", "anchors": ["src/tsm/tsm-screen.c:tsm_screen_write", "src/tsm/tsm-screen.c:screen_write"]}
{"id": "C12", "title": "A run of text is laid out row-major with wrap and scroll", "statement": "With auto-wrap on, full-screen margins and no insert mode, writing any list of single-width characters starting at home leaves exactly the last rows of the row-major layout on the screen, with the earlier rows moved in order into the scrollback (as far as it has room).", "quantifier": "for every text length, width, height and scrollback limit", "why_tests_cant": "The text is unbounded and the relation between wrap, scroll and scrollback has to hold at every boundary.", "anchors": ["src/tsm/tsm-screen.c:tsm_screen_write", "src/tsm/tsm-screen.c:screen_scroll_up", "src/tsm/tsm-screen.c:link_to_scrollback"]}
{"id": "C13", "title": "Scrolling up shifts the margin region and feeds the scrollback", "statement": "tsm_screen_scroll_up(n) moves every line of the margin region up by min(n, region height), fills the bottom with blank default cells, leaves lines outside the region untouched, and on the main screen appends exactly the lines that left the region, oldest first, to the scrollback.", "quantifier": "for every reachable screen and every n, also above the internal 128-line chunk limit", "why_tests_cant": "n and region sizes are unbounded; the chunked recursion only triggers above 128.", "anchors": ["src/tsm/tsm-screen.c:screen_scroll_up", "src/tsm/tsm-screen.c:tsm_screen_scroll_up"]}
{"id": "C14", "title": "Scrolling down shifts the margin region and never touches the scrollback", "statement": "tsm_screen_scroll_down(n) moves every line of the margin region down by min(n, region height), blanks the top lines, leaves all lines outside the region and the scrollback untouched.", "quantifier": "for every reachable screen and every n", "why_tests_cant": "n and region sizes are unbounded.", "anchors": ["src/tsm/tsm-screen.c:screen_scroll_down", "src/tsm/tsm-screen.c:tsm_screen_scroll_down"]}
{"id": "C15", "title": "The scrollback is bounded and keeps the most recent lines in order", "statement": "The scrollback never holds more than the configured maximum, its reported count is the number of stored lines, and its contents are always the most recent scrolled-off lines in the order in which they left the screen; lowering the maximum drops the oldest ones.", "quantifier": "for every history of calls", "why_tests_cant": "Invariant over unbounded histories of scrolls, limit changes and clears.", "anchors": ["src/tsm/tsm-screen.c:link_to_scrollback", "src/tsm/tsm-screen.c:tsm_screen_set_max_sb", "src/tsm/tsm-screen.c:tsm_screen_clear_sb", "src/tsm/tsm-screen.c:tsm_screen_sb_get_line_count"]}
{"id": "C16", "title": "The alternate screen never disturbs the main screen", "statement": "While the alternate screen is active, no writing, scrolling, erasing, inserting, deleting or cursor call modifies the main screen's lines or the scrollback; switching back shows the main screen exactly as it was left.", "quantifier": "for every history of calls between the switch and the switch back (resize and scrollback administration excluded)", "why_tests_cant": "Non-interference over arbitrary call sequences.", "anchors": ["src/tsm/tsm-screen.c:tsm_screen_set_flags", "src/tsm/tsm-screen.c:tsm_screen_reset_flags", "src/tsm/tsm-screen.c:screen_scroll_up"]}
{"id": "C17", "title": "Resize keeps the text that still fits and never reveals stale cells", "statement": "A successful resize keeps every cell that lies in both the old and the new screen (after the upward shift by the number of removed rows on the active screen), blanks every newly exposed cell, moves rows that left the main screen into the scrollback, and puts the cursor back on the screen on the same text row where possible.", "quantifier": "for every reachable screen and every target size", "why_tests_cant": "Depends on previous sizes (hidden rows and columns are kept allocated), so only histories of several resizes reveal stale data.", "anchors": ["src/tsm/tsm-screen.c:tsm_screen_resize"]}
{"id": "C18", "title": "Erase calls blank exactly the documented region and honour protection", "statement": "Every erase call resets exactly the cells of its region (cursor cell, n cells, start/end/whole of line, start/end/whole of screen) to blank cells with the default attribute, skips protected cells if and only if asked to, and changes no other cell and not the cursor.", "quantifier": "for every reachable screen, including pending-wrap cursors, and every argument", "why_tests_cant": "Frame and region conditions over all cells and cursor positions.", "anchors": ["src/tsm/tsm-screen.c:screen_erase_region", "src/tsm/tsm-screen.c:tsm_screen_erase_cursor", "src/tsm/tsm-screen.c:tsm_screen_erase_chars", "src/tsm/tsm-screen.c:tsm_screen_erase_cursor_to_end", "src/tsm/tsm-screen.c:tsm_screen_erase_home_to_cursor", "src/tsm/tsm-screen.c:tsm_screen_erase_screen_to_cursor", "src/tsm/tsm-screen.c:tsm_screen_erase_cursor_to_screen", "src/tsm/tsm-screen.c:tsm_screen_erase_screen", "src/tsm/tsm-screen.c:tsm_screen_erase_current_line"]}
{"id": "C19", "title": "Insert and delete lines shift exactly the lines below the cursor inside the margins", "statement": "insert_lines(n)/delete_lines(n) shift the lines between the cursor row and the bottom margin down/up by min(n, remaining rows), blank the freed rows, keep all other rows, put the cursor in column 0, and do nothing if the cursor is outside the margins; the scrollback is never touched.", "quantifier": "for every reachable screen and every n", "why_tests_cant": "Unbounded sizes and arguments.", "anchors": ["src/tsm/tsm-screen.c:tsm_screen_insert_lines", "src/tsm/tsm-screen.c:tsm_screen_delete_lines"]}
{"id": "C20", "title": "Insert and delete chars shift exactly the rest of the cursor row", "statement": "insert_chars(n)/delete_chars(n) shift the cells from the cursor to the right edge right/left by min(n, remaining cells), blank the freed cells, drop what is pushed out, and change no other cell.", "quantifier": "for every reachable screen and every n", "why_tests_cant": "Unbounded sizes and arguments.", "anchors": ["src/tsm/tsm-screen.c:tsm_screen_insert_chars", "src/tsm/tsm-screen.c:tsm_screen_delete_chars"]}
{"id": "C21", "title": "Tab moves to the n-th next or previous tab stop", "statement": "tab_right(n) puts the cursor on the n-th tab stop right of it (or the last column if there are fewer), tab_left(n) on the n-th tab stop left of it (or column 0); neither changes any cell or the row.", "quantifier": "for every tab-stop set, cursor position and n", "why_tests_cant": "All tab rulers, positions and counts.", "anchors": ["src/tsm/tsm-screen.c:tsm_screen_tab_right", "src/tsm/tsm-screen.c:tsm_screen_tab_left", "src/tsm/tsm-screen.c:tsm_screen_set_tabstop", "src/tsm/tsm-screen.c:tsm_screen_reset_tabstop"]}
{"id": "C22", "title": "Relative cursor movement clamps at margins and edges, scrolling only when asked", "statement": "move_up/down(n, scroll) moves the cursor by at most the distance to the margin (or screen edge if outside the margins), and if and only if scroll is set the excess rows scroll the region; move_left/right/line_home/line_end stay within the row and clamp at the edges.", "quantifier": "for every reachable screen and every n", "why_tests_cant": "All cursor positions, margins and counts.", "anchors": ["src/tsm/tsm-screen.c:tsm_screen_move_up", "src/tsm/tsm-screen.c:tsm_screen_move_down", "src/tsm/tsm-screen.c:tsm_screen_move_left", "src/tsm/tsm-screen.c:tsm_screen_move_right", "src/tsm/tsm-screen.c:tsm_screen_move_line_home", "src/tsm/tsm-screen.c:tsm_screen_move_line_end", "src/tsm/tsm-screen.c:tsm_screen_newline"]}
{"id": "C23", "title": "Absolute cursor addressing clamps to the screen or to the margins", "statement": "move_to(x, y) puts the cursor at (min(x, width-1), min(y, height-1)), and with relative origin at row min(top+y, bottom margin); in relative origin mode the cursor never leaves the margins this way.", "quantifier": "for every reachable screen and all 32-bit coordinates", "why_tests_cant": "All coordinates including those that wrap unsigned arithmetic.", "anchors": ["src/tsm/tsm-screen.c:tsm_screen_move_to", "src/tsm/tsm-screen.c:to_abs_y"]}
{"id": "C24", "title": "Insert mode shifts the rest of the row and loses only what falls off", "statement": "In insert mode, writing a character of width w shifts the cells from the cursor to the right by w, drops only cells pushed beyond the right edge, and changes no other row.", "quantifier": "for every reachable screen and every character", "why_tests_cant": "All widths and columns, including characters wider than the screen.", "anchors": ["src/tsm/tsm-screen.c:screen_write"]}
{"id": "C25", "title": "Rendering visits every cell exactly once in reading order", "statement": "tsm_screen_draw invokes the callback exactly width*height times, once for every position, row by row and left to right, never with an out-of-range position.", "quantifier": "for every reachable screen, including scrolled-back views and scrollback lines narrower or wider than the screen", "why_tests_cant": "All sizes and scroll positions.", "anchors": ["src/tsm/tsm-render.c:tsm_screen_draw"]}
{"id": "C26", "title": "Rendering shows the scrolled view faithfully", "statement": "Row i of the drawing is the i-th line of (scrollback from the current position) followed by the screen lines; each position shows that line's character and attributes, or an empty default cell beyond the line's end; only the inverse attribute is modified, by cursor, inverse mode and selection.", "quantifier": "for every reachable screen", "why_tests_cant": "All scrollback positions and line widths.", "anchors": ["src/tsm/tsm-render.c:tsm_screen_draw"]}
{"id": "C27", "title": "Exactly one cursor is shown", "statement": "If the cursor is not hidden, exactly the cell at the (clamped) cursor position of the live screen is drawn inverted relative to its neighbours' rule, and only if that row is in view; if it is hidden no cell is.", "quantifier": "for every reachable screen and scroll position", "why_tests_cant": "All cursor positions including pending wrap, all scroll positions.", "anchors": ["src/tsm/tsm-render.c:tsm_screen_draw"]}
{"id": "C28", "title": "Damage tracking never misses a change", "statement": "If what is drawn at a position differs between two draws, then the age passed for it in the second draw is either 0 or larger than the age value returned by the first draw. A renderer that skips cells whose age is not newer therefore never shows stale content.", "quantifier": "for every history of API calls between two draws, including counter overflow", "why_tests_cant": "A missed age update shows up only for a particular call in a particular state; soundness quantifies over all histories.", "anchors": ["src/tsm/tsm-render.c:tsm_screen_draw", "src/tsm/libtsm-int.h:screen_inc_age", "src/tsm/tsm-screen.c:move_cursor", "src/tsm/tsm-screen.c:tsm_screen_set_flags", "src/tsm/tsm-screen.c:tsm_screen_resize"]}
{"id": "C29", "title": "Rendering and querying do not change the terminal", "statement": "tsm_screen_draw changes nothing but the pending overflow flag, and selection copy and the getters change nothing at all: two consecutive draws give the same cells.", "quantifier": "for every reachable screen", "why_tests_cant": "Frame property over all states.", "anchors": ["src/tsm/tsm-render.c:tsm_screen_draw", "src/tsm/tsm-selection.c:tsm_screen_selection_copy"]}
{"id": "C30", "title": "Selection endpoints attach to the line shown under the pointer", "statement": "selection_start/target(x, y) anchors the endpoint to the line that is drawn in row y, whether that line is in the scrollback or on the live screen.", "quantifier": "for every reachable screen, scroll position and row", "why_tests_cant": "All scroll positions and rows.", "anchors": ["src/tsm/tsm-selection.c:selection_set", "src/tsm/tsm-selection.c:tsm_screen_selection_start", "src/tsm/tsm-selection.c:tsm_screen_selection_target", "src/tsm/tsm-render.c:tsm_screen_draw"]}
{"id": "C31", "title": "The highlighted area is exactly the text between the endpoints", "statement": "For endpoints on the live screen the cells drawn inverted because of the selection are exactly those between the two endpoints in reading order, both included, regardless of which endpoint comes first.", "quantifier": "for every pair of endpoints on every screen", "why_tests_cant": "All pairs of positions.", "anchors": ["src/tsm/tsm-render.c:tsm_screen_draw", "src/tsm/tsm-selection.c:tsm_screen_selection_start"]}
{"id": "C32", "title": "Copying a selection returns the selected text", "statement": "For a selection on the live screen the copied bytes are, per selected row, the UTF-8 of the selected cells up to the last non-empty cell of the row, rows separated by single newlines without a trailing one, and the returned length is the number of bytes.", "quantifier": "for every screen content and every pair of on-screen endpoints", "why_tests_cant": "All contents and endpoint pairs.", "anchors": ["src/tsm/tsm-selection.c:tsm_screen_selection_copy", "src/tsm/tsm-selection.c:copy_line", "src/tsm/tsm-selection.c:copy_lines", "src/tsm/tsm-selection.c:calc_selection_line_len"]}
{"id": "C33", "title": "Copying a selection is memory safe", "statement": "tsm_screen_selection_copy never reads outside the line array or writes outside the buffer it allocated, whatever the selection and the scrolling that happened since it was made.", "quantifier": "for every history of calls followed by a copy", "why_tests_cant": "Needs particular histories (selection partly scrolled away, full rows of 4-byte characters).", "anchors": ["src/tsm/tsm-selection.c:tsm_screen_selection_copy", "src/tsm/tsm-selection.c:calc_line_copy_buffer", "src/tsm/tsm-selection.c:copy_lines"]}
{"id": "C34", "title": "Copying does not depend on the direction of the selection", "statement": "Selecting from A to B and from B to A copies the same text.", "quantifier": "for every screen and every pair of positions, on screen or in the scrollback", "why_tests_cant": "All pairs of positions in live screen and scrollback.", "anchors": ["src/tsm/tsm-selection.c:norm_selection", "src/tsm/tsm-selection.c:tsm_screen_selection_copy"]}
{"id": "C35", "title": "A selection follows its text when the screen scrolls", "statement": "When the whole main screen scrolls up, an on-screen endpoint stays attached to the same line: it moves up with it and, when the line moves into the scrollback, refers to that scrollback line; if the line is discarded the endpoint becomes 'top'.", "quantifier": "for every selection, scroll amount and scrollback limit", "why_tests_cant": "All selections and scroll amounts.", "anchors": ["src/tsm/tsm-screen.c:screen_scroll_up", "src/tsm/tsm-screen.c:link_to_scrollback"]}
{"id": "C36", "title": "No dangling references into the scrollback", "statement": "The view position and the endpoints of an active selection always refer to lines that are currently in the scrollback (or to none): trimming, clearing or overflowing the scrollback never leaves a reference to a freed line.", "quantifier": "for every history of calls", "why_tests_cant": "Use-after-free over unbounded histories.", "anchors": ["src/tsm/tsm-screen.c:link_to_scrollback", "src/tsm/tsm-screen.c:tsm_screen_set_max_sb", "src/tsm/tsm-screen.c:tsm_screen_clear_sb", "src/tsm/tsm-screen.c:tsm_screen_sb_up", "src/tsm/tsm-selection.c:selection_set"]}
{"id": "C37", "title": "Scrolling the view moves by exactly the requested number of lines", "statement": "sb_up(n)/sb_down(n)/page variants move the view by exactly n lines (n*height for pages), clamped at the oldest line and at the live screen; sb_reset returns to the live screen.", "quantifier": "for every reachable screen and every n", "why_tests_cant": "All scrollback sizes, positions and counts.", "anchors": ["src/tsm/tsm-screen.c:tsm_screen_sb_up", "src/tsm/tsm-screen.c:tsm_screen_sb_down", "src/tsm/tsm-screen.c:tsm_screen_sb_page_up", "src/tsm/tsm-screen.c:tsm_screen_sb_page_down", "src/tsm/tsm-screen.c:tsm_screen_sb_reset"]}
{"id": "C38", "title": "The reported scrollback position is the index of the first visible line", "statement": "tsm_screen_sb_get_line_pos returns the number of scrollback lines above the view (the line count when the live screen is shown).", "quantifier": "for every history of calls", "why_tests_cant": "The counter is maintained incrementally, so errors accumulate over histories.", "anchors": ["src/tsm/tsm-screen.c:tsm_screen_sb_get_line_pos", "src/tsm/tsm-screen.c:link_to_scrollback", "src/tsm/tsm-screen.c:tsm_screen_sb_reset", "src/tsm/tsm-screen.c:tsm_screen_set_max_sb"]}
{"id": "C39", "title": "Input chunking is irrelevant", "statement": "Splitting the byte stream given to tsm_vte_input at any places, even inside a UTF-8 character or an escape sequence, gives the same screen, the same replies and the same parser state as one call with all bytes.", "quantifier": "for every byte stream and every way to split it", "why_tests_cant": "Exponentially many splits of unboundedly long streams.", "anchors": ["src/tsm/tsm-vte.c:tsm_vte_input", "src/tsm/tsm-vte.c:parse_data"]}
{"id": "C40", "title": "Arbitrary terminal input is safe", "statement": "No byte stream fed to tsm_vte_input makes the emulator access memory out of bounds; parser indices, parameter counts and string lengths stay within their arrays.", "quantifier": "for every byte stream, every reachable state and every encoding mode", "why_tests_cant": "Untrusted input of unbounded length; fuzzing samples only.", "anchors": ["src/tsm/tsm-vte.c:tsm_vte_input", "src/tsm/tsm-vte.c:parse_data", "src/tsm/tsm-vte.c:do_csi", "src/tsm/tsm-vte.c:do_param", "src/tsm/tsm-vte.c:csi_attribute", "src/tsm/tsm-vte.c:do_osc_collect"]}
{"id": "C41", "title": "CSI parameters are parsed as decimal numbers and bounded", "statement": "Feeding the decimal digits of numbers separated by semicolons yields exactly these numbers as parameters; missing parameters are reported as absent; at most 16 are kept and values never exceed 655359.", "quantifier": "for every list of numbers and every digit string", "why_tests_cant": "Unbounded digit strings and parameter lists.", "anchors": ["src/tsm/tsm-vte.c:do_param", "src/tsm/tsm-vte.c:do_collect", "src/tsm/tsm-vte.c:do_clear", "src/tsm/tsm-vte.c:do_csi"]}
{"id": "C42", "title": "Cursor position sequence works end to end", "statement": "The bytes ESC [ r ; c H put the cursor in row r and column c (1-based, 0 or missing meaning 1), clamped to the screen, without changing any cell, from any parser state.", "quantifier": "for every r and c within the parameter limit, every reachable terminal state", "why_tests_cant": "All coordinate pairs and terminal states.", "anchors": ["src/tsm/tsm-vte.c:do_csi", "src/tsm/tsm-vte.c:parse_data", "src/tsm/tsm-screen.c:tsm_screen_move_to"]}
{"id": "C43", "title": "The parser can always be resynchronised", "statement": "From every parser state CAN and SUB return to the ground state without printing, ESC starts a fresh sequence discarding the old one, and every byte leaves the parser in one of its declared states.", "quantifier": "for every parser state and every input byte or code point", "why_tests_cant": "All states times all 2^32 input values.", "anchors": ["src/tsm/tsm-vte.c:parse_data", "src/tsm/tsm-vte.c:do_trans"]}
{"id": "C44", "title": "OSC strings are delivered once, bounded and unmodified", "statement": "An operating system command of at most 127 UTF-8 bytes terminated by BEL, ST or ESC \\ is delivered to the callback exactly once with exactly its bytes; longer ones are cut, never overflow, and nothing of them is printed.", "quantifier": "for every payload", "why_tests_cant": "Payloads of every length and content.", "anchors": ["src/tsm/tsm-vte.c:do_osc_collect", "src/tsm/tsm-vte.c:do_osc_end", "src/tsm/tsm-vte.c:parse_data"]}
{"id": "C45", "title": "SGR colour and attribute semantics", "statement": "Each SGR sequence updates the current attributes as documented for 0,1,3,4,5,7,22..27,29,30-37,39,40-47,49,90-97,100-107,38/48;5;n and 38/48;2;r;g;b; colour codes stay within the palette so that every palette lookup is in range, and SGR 0 restores the default attributes.", "quantifier": "for every parameter list and every current attribute", "why_tests_cant": "Unbounded parameter lists with interacting state.", "anchors": ["src/tsm/tsm-vte.c:csi_attribute", "src/tsm/tsm-vte.c:to_rgb"]}
{"id": "C46", "title": "Cursor position reports are truthful", "statement": "The reply to CSI 6 n is ESC [ row ; column R with the current 1-based cursor position in decimal; sending that position back with CSI H leaves the cursor where it was. CSI 5 n is answered with ESC [ 0 n.", "quantifier": "for every reachable terminal state", "why_tests_cant": "All cursor positions.", "anchors": ["src/tsm/tsm-vte.c:csi_dsr", "src/tsm/tsm-vte.c:do_csi"]}
{"id": "C47", "title": "Save and restore cursor round trip", "statement": "ESC 7 followed by any output that changes neither size nor the saved slot, followed by ESC 8, restores cursor position, attributes, character sets, auto-wrap and origin mode.", "quantifier": "for every terminal state and every history in between", "why_tests_cant": "All states and histories between save and restore.", "anchors": ["src/tsm/tsm-vte.c:save_state", "src/tsm/tsm-vte.c:restore_state"]}
{"id": "C48", "title": "RIS resets everything from any state", "statement": "ESC c brings the terminal from any reachable state to a blank screen with default attributes, empty scrollback, cursor at home, default modes, margins, tab stops and character sets.", "quantifier": "for every reachable terminal state", "why_tests_cant": "Reset must work from unboundedly many states.", "anchors": ["src/tsm/tsm-vte.c:tsm_vte_hard_reset", "src/tsm/tsm-vte.c:tsm_vte_reset", "src/tsm/tsm-screen.c:tsm_screen_reset"]}
{"id": "C49", "title": "Soft reset keeps text and scrollback", "statement": "DECSTR (CSI ! p) resets modes and attributes but leaves all visible text of the main screen, the scrollback and the cursor position as they are.", "quantifier": "for every reachable terminal state", "why_tests_cant": "All states.", "anchors": ["src/tsm/tsm-vte.c:csi_soft_reset", "src/tsm/tsm-vte.c:tsm_vte_reset"]}
{"id": "C50", "title": "Terminal replies and local echo never recurse", "statement": "Processing input never re-enters itself: local echo happens only for bytes written outside input processing, replies produced while parsing are sent once and not echoed, and the nesting counter is balanced after every call.", "quantifier": "for every byte stream, key event and mode combination", "why_tests_cant": "Re-entrancy over arbitrary inputs.", "anchors": ["src/tsm/tsm-vte.c:vte_write_debug", "src/tsm/tsm-vte.c:tsm_vte_input"]}
{"id": "C51", "title": "Character set mapping and single shifts", "statement": "With the default sets every printable character maps to itself; a single shift (SS2/SS3) affects exactly the next GL character; locking shifts and designations affect only characters of their half, and the map index is always inside the 96-entry table.", "quantifier": "for every code point and every sequence of shifts and designations", "why_tests_cant": "All characters and shift histories.", "anchors": ["src/tsm/tsm-vte.c:vte_map", "src/tsm/tsm-vte.c:do_esc", "src/tsm/tsm-vte-charsets.c:tsm_vte_unicode_lower", "src/tsm/tsm-vte-charsets.c:tsm_vte_unicode_upper"]}
{"id": "C52", "title": "Printable text reaches the screen unchanged", "statement": "In the ground state with default character sets, feeding the UTF-8 encoding of printable characters is the same as writing these characters to the screen with the current attributes, one after the other.", "quantifier": "for every list of printable characters and every reachable ground state", "why_tests_cant": "Unbounded text.", "anchors": ["src/tsm/tsm-vte.c:tsm_vte_input", "src/tsm/tsm-vte.c:parse_data", "src/tsm/tsm-vte.c:write_console"]}
{"id": "C53", "title": "7-bit and 8-bit input modes", "statement": "In 7-bit mode the top bit of every input byte is ignored; in 8-bit mode a byte is handled as the character with the same code (C1 bytes act as C1 controls, GR bytes print).", "quantifier": "for every byte stream and both signednesses of plain char", "why_tests_cant": "All byte streams; platform dependent.", "anchors": ["src/tsm/tsm-vte.c:tsm_vte_input"]}
{"id": "C54", "title": "Alternate screen switching by escape sequences restores the main screen", "statement": "CSI ? 1049 h, then any output that does not switch screens, resize or reset, then CSI ? 1049 l shows the main screen with its former text and puts the cursor back.", "quantifier": "for every reachable state and every output in between", "why_tests_cant": "Histories in between are unbounded.", "anchors": ["src/tsm/tsm-vte.c:csi_mode", "src/tsm/tsm-vte.c:csi_mode", "src/tsm/tsm-screen.c:tsm_screen_set_flags"]}
{"id": "C55", "title": "Keyboard input is encoded deterministically and completely", "statement": "For every key event the emulator either sends exactly one well defined byte string or reports the key as unhandled and sends nothing; character keys send the character in the active encoding and control letters send the matching control code.", "quantifier": "for every keysym, modifier set, code point and mode", "why_tests_cant": "2^32 keysyms times modifiers times modes.", "anchors": ["src/tsm/tsm-vte.c:tsm_vte_handle_keyboard"]}
{"id": "C56", "title": "Alt prefixes exactly one escape and leaves no trace", "statement": "With Alt (and no other mechanism) the sent byte string is preceded by exactly one ESC; after every key event no escape prefix remains pending for the next write.", "quantifier": "for every key event in every state", "why_tests_cant": "All key events and states.", "anchors": ["src/tsm/tsm-vte.c:tsm_vte_handle_keyboard", "src/tsm/tsm-vte.c:vte_write_debug"]}
{"id": "C57", "title": "SGR mouse reports can be decoded back", "statement": "In SGR mode the report for a press, release or motion is ESC [ < b ; x ; y M/m with 1-based decimal coordinates, from which button, modifiers and position can be recovered. In pixel mode the same holds for the position of the pixel, counted from 0.", "quantifier": "for every position, button and modifier set", "why_tests_cant": "All coordinates; the fixed 24-byte buffer truncates only for large ones.", "anchors": ["src/tsm/tsm-vte.c:tsm_vte_handle_mouse"]}
{"id": "C58", "title": "X10 mouse reports are clamped and printable", "statement": "In X10 mode the report is ESC [ M followed by exactly three bytes, the coordinates clamped to 255 and offset by 33, and button 3 for releases.", "quantifier": "for every position, button and modifier set", "why_tests_cant": "All 32-bit coordinates.", "anchors": ["src/tsm/tsm-vte.c:tsm_vte_handle_mouse"]}
{"id": "C59", "title": "Mouse motion is filtered and deduplicated", "statement": "Motion events are reported only in any-event mode, and consecutive motion reports in SGR mode never repeat the same cell; nothing is reported when mouse tracking is off.", "quantifier": "for every sequence of mouse events", "why_tests_cant": "All event histories.", "anchors": ["src/tsm/tsm-vte.c:tsm_vte_handle_mouse"]}
{"id": "C60", "title": "Palette lookups are in range and selectable by name", "statement": "Colour conversion always reads one of the 18 palette entries; selecting a palette by a known name installs it and unknown names fall back to the default palette. The colours are those published under the name. Setting a custom palette shows at once if it is selected; if memory is short nothing changes.", "quantifier": "for every attribute reachable through any input and every palette name", "why_tests_cant": "All attribute histories and names.", "anchors": ["src/tsm/tsm-vte.c:to_rgb", "src/tsm/tsm-vte.c:get_palette", "src/tsm/tsm-vte.c:tsm_vte_set_palette"]}
{"id": "C61", "title": "The ring buffer is an unbounded FIFO of bytes", "statement": "Any interleaving of push, peek, copy and pull behaves like a byte queue: what is pulled is what was pushed, in order, nothing lost or duplicated, across wrap-around and growth; a failed push changes nothing.", "quantifier": "for every sequence of operations and allocation failures", "why_tests_cant": "Wrap-around positions and growth points depend on unbounded histories.", "anchors": ["src/shared/shl-ring.c:shl_ring_push", "src/shared/shl-ring.c:shl_ring_peek", "src/shared/shl-ring.c:shl_ring_pull", "src/shared/shl-ring.c:shl_ring_copy", "src/shared/shl-ring.c:ring_resize"]}
{"id": "C62", "title": "Bytes written to the pty arrive once and in order", "statement": "Whatever the kernel accepts per writev call (partial writes, EAGAIN, EINTR), the concatenation of what the child receives is always a prefix of the bytes queued with shl_pty_write, and everything queued is eventually sent if the kernel keeps accepting. After the pty is closed nothing more is transferred.", "quantifier": "for every schedule of write calls and kernel responses", "why_tests_cant": "Depends on the schedule of partial writes.", "anchors": ["src/shared/shl-pty.c:pty_write", "src/shared/shl-pty.c:shl_pty_write"]}
{"id": "C63", "title": "Dynamic array behaves like a list", "statement": "push appends at the end and keeps all earlier elements across reallocation, pop removes the last, length is exact, and a failed push changes nothing; resizing up with zresize yields zeroed new elements.", "quantifier": "for every sequence of operations and allocation failures", "why_tests_cant": "Growth points depend on history.", "anchors": ["src/shared/shl-array.h:shl_array_push", "src/shared/shl-array.h:shl_array_pop", "src/shared/shl-array.h:shl_array_zresize"]}
{"id": "C64", "title": "Hash table finds exactly what was inserted and not removed", "statement": "After any history of inserts and removes, lookup finds an element if and only if an equal one is present, under arbitrary hash collisions, deletions, growth and pointer-bit compression.", "quantifier": "for every history, every hash function and every set of pointers", "why_tests_cant": "Open addressing with tombstones and pointer-bit stealing has history dependent states.", "anchors": ["src/shared/shl-htable.c:htable_add", "src/shared/shl-htable.c:htable_firstval", "src/shared/shl-htable.c:htable_del", "src/shared/shl-htable.c:update_common", "src/shared/shl-htable.c:shl_htable_insert"]}
{"id": "C65", "title": "Column addressing does not move the cursor to another row", "statement": "CSI n G (cursor horizontal absolute) changes the column only, and CSI n d (vertical absolute) changes the row only, also in origin mode.", "quantifier": "for every n and every reachable terminal state", "why_tests_cant": "Only wrong for particular mode and margin combinations.", "anchors": ["src/tsm/tsm-vte.c:do_csi", "src/tsm/tsm-screen.c:tsm_screen_move_to"]}
{"id": "C66", "title": "Unknown sequences have no visible effect", "statement": "Control sequences the emulator does not implement change neither screen contents nor cursor nor modes and cause no reply.", "quantifier": "for every unimplemented final byte and all parameters, every reachable state", "why_tests_cant": "All parameter lists and states.", "anchors": ["src/tsm/tsm-vte.c:do_csi", "src/tsm/tsm-vte.c:do_esc", "src/tsm/tsm-vte.c:do_execute"]}
{"id": "C67", "title": "Flag and tab-stop setters change only what they name", "statement": "set_flags/reset_flags set/clear exactly the given flag bits and change no cell text; setting or clearing a tab stop affects only the cursor column; set_margins changes only the margins.", "quantifier": "for every flag mask and every reachable screen", "why_tests_cant": "All masks and states.", "anchors": ["src/tsm/tsm-screen.c:tsm_screen_set_flags", "src/tsm/tsm-screen.c:tsm_screen_reset_flags", "src/tsm/tsm-screen.c:tsm_screen_set_tabstop", "src/tsm/tsm-screen.c:tsm_screen_reset_tabstop", "src/tsm/tsm-screen.c:tsm_screen_reset_all_tabstops", "src/tsm/tsm-screen.c:tsm_screen_set_margins"]}
{"id": "C68", "title": "Bytes from the other side of the pty reach the input callback once and in order", "statement": "Everything the child process writes is delivered to the input callback of shl_pty exactly once, in order, without invented or repeated bytes, in whatever pieces read() returns it and however the dispatches are interleaved with writes, failed allocations and partial reads.", "quantifier": "for every history of writes, dispatches and child output, every size returned by read, every pattern of allocation failures", "why_tests_cant": "A test exercises a few read sizes on a quiet system; it cannot enumerate interleavings of partial reads, edge-triggered wakeups and failures.", "anchors": ["src/shared/shl-pty.c:pty_read", "src/shared/shl-pty.c:shl_pty_dispatch"]}
{"id": "C69", "title": "Glyph ids identify what is drawn", "statement": "In all drawings of all screens two cells are given the same id by tsm_screen_draw exactly if they show the same character with the same bold, italic, underline, inverse and blink attributes, so that renderers can cache glyphs by id.", "quantifier": "for every pair of reachable screens and every pair of cells drawn", "why_tests_cant": "A collision may concern any two of 2^31 characters and 32 attribute combinations on screens with any history.", "anchors": ["src/tsm/tsm-render.c:tsm_screen_draw", "src/tsm/tsm-screen.c:tsm_screen_write"]}
{"id": "C70", "title": "Nothing is shown that was not written", "statement": "Every cell of the main screen, the alternate screen and the scrollback is empty with an attribute that was a default attribute at some time, or holds a printable character that was written by an earlier call with exactly this attribute and has the width of that character (0 where a wide character covers it). A drawing shows no other characters.", "quantifier": "for every history of API calls, including resizes, scrolling, insertion and deletion, with allocation failures anywhere", "why_tests_cant": "Stale or uninitialised cells appear only after particular combinations of resizing, scrolling and failing allocations.", "anchors": ["src/tsm/tsm-screen.c:tsm_screen_resize", "src/tsm/tsm-screen.c:screen_scroll_up", "src/tsm/tsm-screen.c:screen_write", "src/tsm/tsm-render.c:tsm_screen_draw"]}
{"id": "C71", "title": "Settings change only by the calls that set them", "statement": "Modes (tsm_screen_get_flags, the screen shown), size, margins, tab stops, default attributes and the maximal scrollback size of a screen are changed only by the few functions that are there for this: flags by set/reset_flags and reset, size by resize, margins by set_margins, reset and resize, tab stops by the tab stop functions, reset and resize, default attributes by set_def_attr, scrollback size by set_max_sb. Writing, moving, scrolling, erasing, selecting, drawing and viewing the scrollback never do.", "quantifier": "for every call in every state and for every sequence of calls, with allocation failures anywhere", "why_tests_cant": "A test checks a setting after a few calls; a stray assignment in one branch of one of 45 functions shows only in the state that reaches it.", "anchors": ["src/tsm/tsm-screen.c:tsm_screen_set_flags", "src/tsm/tsm-screen.c:tsm_screen_resize", "src/tsm/tsm-screen.c:tsm_screen_reset", "src/tsm/tsm-screen.c:tsm_screen_set_margins"]}
{"id": "C72", "title": "Input can only provoke fixed answers", "statement": "Whatever bytes are fed to tsm_vte_input, the write callback gets only ACK, the two device attribute strings, the status report, or a cursor position report of two decimal numbers, at most one for each byte that was read, each at most 24 bytes long and without line feed or carriage return. In particular text of the input is never sent back, so that a file shown with cat cannot type commands into the shell.", "quantifier": "for every byte string in every reachable state of parser, modes and screen", "why_tests_cant": "Injection through answers depends on sequences nobody has thought of; only a statement about all byte strings excludes it.", "anchors": ["src/tsm/tsm-vte.c:vte_write", "src/tsm/tsm-vte.c:do_execute", "src/tsm/tsm-vte.c:csi_dev_attr", "src/tsm/tsm-vte.c:csi_dsr"]}
{"id": "C73", "title": "Emulator and screen agree on the modes", "statement": "As long as the user does not set flags of the screen directly, the emulator's insert mode, reverse video, origin mode, auto-wrap mode and cursor visibility are those of its screen; so what DECSC saves and later sequences toggle is the real mode.", "quantifier": "for every history of input, keyboard and mouse events (with local echo), resets, palette changes and calls of the screen that set no flags, from any screen", "why_tests_cant": "The two copies of each mode are updated at a dozen places; they drift apart only along particular sequences of mode changes, saves and resets.", "anchors": ["src/tsm/tsm-vte.c:csi_mode", "src/tsm/tsm-vte.c:restore_state", "src/tsm/tsm-vte.c:tsm_vte_reset"]}
{"id": "C74", "title": "Only text is shown", "statement": "A character that is stored in the screens or the scrollback after tsm_vte_input was stored before with the same attributes, or is shown for a character of the input that the parser read while outside of all escape and control sequences: itself, or the entry of one of the character sets for codes of the lower and upper half; SUB is shown as an inverted question mark. Parameters, intermediate characters and OSC strings never get onto the screen.", "quantifier": "for every byte string in every state, including broken UTF-8 and 7/8-bit modes", "why_tests_cant": "The claim is about every byte of every stream; a leak of one character of a sequence in one parser state is enough to break it.", "anchors": ["src/tsm/tsm-vte.c:parse_data", "src/tsm/tsm-vte.c:do_action", "src/tsm/tsm-vte.c:vte_map"]}
{"id": "C75", "title": "Input cannot change what belongs to the embedding program", "statement": "tsm_vte_input never changes the size of the screen, the maximal scrollback size, the palette, the default attributes of the emulator, the backspace setting or the callbacks, not even by a full reset.", "quantifier": "for every byte string in every reachable state", "why_tests_cant": "Sequences for resizing and palette changes exist in other terminals; that no sequence at all has such an effect is a statement about all inputs.", "anchors": ["src/tsm/tsm-vte.c:tsm_vte_input", "src/tsm/tsm-vte.c:tsm_vte_reset", "src/tsm/tsm-vte.c:csi_mode"]}
{"id": "C76", "title": "Control characters and their 7-bit forms", "statement": "Outside of strings a C0 control character takes effect at once and does not disturb the sequence it appears in: BS, HT, LF/VT/FF (depending on LNM) and CR make the corresponding call on the screen, ENQ sends ACK, all others except SO, SI, CAN, SUB and ESC do nothing. In every parser state the C1 controls IND, NEL, HTS and RI make theirs, every C1 control does the same as ESC followed by the character 0x40 lower, and CAN abandons what the parser is reading without any other effect.", "quantifier": "for every reachable state between two characters (all parser states), every control character", "why_tests_cant": "There are more than a dozen parser states with arbitrary parameters, modes and screen contents, times 64 control characters; tests check a few in the ground state.", "anchors": ["src/tsm/tsm-vte.c:do_execute", "src/tsm/tsm-vte.c:do_esc", "src/tsm/tsm-vte.c:parse_data"]}
{"id": "C77", "title": "Control sequences that move the cursor and edit the screen", "statement": "CSI followed by a number and one of @ A B C D E F I J K L M P S T X Z g has just the effect of the corresponding call on the screen with that number, 1 being used if it is 0 or left out where it is a count; J and K with the mark ? keep protected characters; CSI t ; b r sets the margins. Nothing else changes, no answer is sent, and the parser is in the ground state again; an unfinished earlier sequence is dropped.", "quantifier": "for every reachable state between two characters, every number up to 655359", "why_tests_cant": "Numbers, parser states and screens are unbounded; a wrong case of the switch, a wrong default or a missing reset of parameters shows only for some combinations.", "anchors": ["src/tsm/tsm-vte.c:do_csi", "src/tsm/tsm-vte.c:do_param", "src/tsm/tsm-vte.c:do_clear"]}
{"id": "C78", "title": "Relative vertical positioning", "statement": "CSI n e moves the cursor down n rows in its column, stopping at the last row, or in origin mode at the bottom margin.", "quantifier": "for every reachable state between two characters, every number up to 655359", "why_tests_cant": "Origin mode, margins, position and number range over large sets; the code mixes absolute and margin-relative rows, which shows only with origin mode and a top margin.", "anchors": ["src/tsm/tsm-vte.c:do_csi", "src/tsm/tsm-screen.c:tsm_screen_move_to"]}
{"id": "C79", "title": "Setting and resetting modes", "statement": "CSI with a list of numbers and h or l sets or resets the ECMA-48 modes 2, 4, 12 and 20, with the mark ? the DEC private modes 1, 5, 6, 7, 8, 25, 42, 47 and 1047: exactly the listed modes get the new value, the screen is told about those that concern it in the order listed, unknown modes and those after the sixteenth are skipped, and nothing else changes. Mode 1048 saves and restores the cursor like DECSC and DECRC; ESC = and ESC > switch the keypad mode.", "quantifier": "for every reachable state between two characters, every non-empty list of numbers of any number of digits", "why_tests_cant": "Lists of modes are unbounded and every mode must leave all others alone in every state of the screen; tests set single modes.", "anchors": ["src/tsm/tsm-vte.c:csi_mode", "src/tsm/tsm-vte.c:csi_mode", "src/tsm/tsm-vte.c:do_esc"]}
{"id": "C80", "title": "The terminal identifies itself", "statement": "CSI c, CSI 0 c and ESC Z are answered with ESC [ ? 60 ; 1 ; 6 ; 9 ; 15 c, CSI > c and CSI > 0 c with ESC [ > 1 ; 1 ; 0 c; with another number or with the mark ? nothing is sent. In no case does anything else happen.", "quantifier": "for every reachable state between two characters, every number", "why_tests_cant": "The answer must not depend on the parser state, on pending parameters or on modes, and the request must have no side effects; a test checks one state.", "anchors": ["src/tsm/tsm-vte.c:csi_dev_attr", "src/tsm/tsm-vte.c:send_primary_da"]}
{"id": "C81", "title": "Lines are allocated, used and freed correctly", "statement": "Whatever is done with a screen, no line is read, written or freed that is not allocated; the allocated lines are at all times exactly the distinct lines of the two buffers and the scrollback, which is correctly linked in both directions; the view position and the selection point to such lines or nowhere. When the last reference to the screen is dropped, or when it cannot be created for lack of memory, every line has been freed exactly once. Drawing and copying never follow a stale pointer. Which addresses the allocator chooses makes no difference to what is shown or copied.", "quantifier": "for every allocator (also one that reuses addresses immediately), every pattern of failing allocations, every history of calls", "why_tests_cant": "Use after free needs a particular order of scrolling, evicting, selecting, resizing and clearing, combined with a failing allocation or a reused address; a test sees it only if it hits that order and the freed memory happens to change.", "anchors": ["src/tsm/tsm-screen.c:line_new", "src/tsm/tsm-screen.c:line_free", "src/tsm/tsm-screen.c:link_to_scrollback", "src/tsm/tsm-screen.c:screen_scroll_up", "src/tsm/tsm-screen.c:tsm_screen_resize", "src/tsm/tsm-screen.c:tsm_screen_unref", "src/tsm/tsm-screen.c:tsm_screen_set_max_sb", "src/tsm/tsm-screen.c:tsm_screen_clear_sb", "src/tsm/tsm-selection.c:tsm_screen_selection_copy", "src/tsm/tsm-render.c:tsm_screen_draw"]}
{"id": "C82", "title": "Reference counting keeps objects alive exactly as long as they are needed", "statement": "A program that references, releases and uses screens and terminals only while it holds a reference to them (one from each creation, one more from each ref call) never uses freed memory and frees nothing twice. A terminal keeps its screen alive after the program has dropped its own references to the screen. At every moment exactly the memory of the objects still needed is allocated, including the symbol table, the decoder, the palette's name and a custom palette; after all references are dropped nothing is left, also if some creations failed half-way for lack of memory.", "quantifier": "for every allocator, every pattern of failing allocations, every sequence of fewer than 2^64 calls on any number of screens and terminals", "why_tests_cant": "The order in which references to screens and terminals are dropped, palettes are replaced and allocations fail has unboundedly many interleavings; a use after free or a leak in one of them shows in a test only if that order is tried under a memory checker.", "anchors": ["src/tsm/tsm-screen.c:tsm_screen_new", "src/tsm/tsm-screen.c:tsm_screen_ref", "src/tsm/tsm-screen.c:tsm_screen_unref", "src/tsm/tsm-vte.c:tsm_vte_new", "src/tsm/tsm-vte.c:tsm_vte_ref", "src/tsm/tsm-vte.c:tsm_vte_unref", "src/tsm/tsm-vte.c:tsm_vte_set_palette", "src/tsm/tsm-vte.c:tsm_vte_set_custom_palette", "src/tsm/tsm-unicode.c:tsm_symbol_table_new", "src/tsm/tsm-unicode.c:tsm_symbol_table_unref"]}
{"id": "C83", "title": "The embedder is told which mouse events are needed", "statement": "An embedder that has set a mouse callback and passes to tsm_vte_handle_mouse only the kinds of events that the last call of the callback asked for (none, buttons, buttons and motion) loses no report, and it needs to fill in only the coordinates (cell or pixel) it was asked for. Mouse modes set and reset by CSI ? Pm h and l change exactly the requested encoding and kind of events, and when no event can be reported any more the callback says so.", "quantifier": "for every sequence of calls and input bytes with the callback set at the start, every mouse event, every list of mouse modes", "why_tests_cant": "The callback is called only on some of the transitions between encodings and kinds of events, resets change the modes without calling it, and whether the last call still fits depends on the whole history of modes, resets and other calls.", "anchors": ["src/tsm/tsm-vte.c:csi_mode", "src/tsm/tsm-vte.c:tsm_vte_handle_mouse", "src/tsm/tsm-vte.c:tsm_vte_set_mouse_cb", "src/tsm/tsm-vte.c:tsm_vte_get_mouse_mode", "src/tsm/tsm-vte.c:tsm_vte_get_mouse_event", "src/tsm/tsm-vte.c:tsm_vte_reset"]}
{"id": "C84", "title": "Selecting a conformance level", "statement": "CSI Pl ; Pc \" p (DECSCL), with or without the quotation mark, does a soft reset: modes, attributes, margins and tab stops become those after power-on and the main screen is shown, while text, scrollback and cursor stay. Afterwards input is decoded as 7-bit characters for level 61, as 8-bit characters for levels 62 to 64 and as UTF-8 for any other number; the left half of the character set is ASCII, the right half the DEC supplemental set for a level and Latin-1 otherwise, no shift is pending.", "quantifier": "for every reachable state between two characters, every non-empty list of parameters of any number of digits", "why_tests_cant": "The outcome must not depend on any mode, character set, margin or screen that was active before, and the numbers are unbounded; a test selects one level from one state.", "anchors": ["src/tsm/tsm-vte.c:csi_compat_mode", "src/tsm/tsm-vte.c:csi_soft_reset", "src/tsm/tsm-vte.c:do_csi", "src/tsm/tsm-vte.c:tsm_vte_input"]}
{"id": "C85", "title": "The emulator shows what a reference terminal shows", "statement": "For programs that use text (also wide characters), CR, LF, BS, HT, IND, NEL, RI, cursor movement and addressing, erasing, inserting and deleting characters and lines, scrolling, scroll regions, SGR, tab stops (HTS, TBC, CHT, CBT), insert, auto-wrap, newline and origin mode, saving and restoring the cursor, the alternate screen, line drawing (ESC ( 0, ESC ) 0, SO, SI), hiding the cursor, reversing the screen, application cursor keys and keypad, local echo, requests for status, position and identity, and modes the emulator does not have, the emulator shows at every moment exactly the display of the terminal described by the manuals: every cell with character and attributes, cursor, scroll region, tab stops, modes, pen, character sets, visibility of the cursor and keyboard modes, also when a saved cursor or the main screen comes back. It answers what this terminal answers to the requests, and nothing else; after a reset this holds from every state.", "quantifier": "for every reachable state in UTF-8 mode in which G0 and G1 are ASCII, Latin-1 or the line drawing set and one of them is in use, and no unfinished sequence, every screen size, every finite sequence of commands with parameters of any number of digits", "why_tests_cant": "The commands interact through the cursor, the pending wrap at the right margin, the scroll region and the pen; agreement must hold after every sequence of any length on every screen size, while a test compares single commands or short recordings.", "anchors": ["src/tsm/tsm-vte.c:tsm_vte_input", "src/tsm/tsm-vte.c:do_csi", "src/tsm/tsm-vte.c:do_execute", "src/tsm/tsm-vte.c:do_esc", "src/tsm/tsm-screen.c:tsm_screen_write", "src/tsm/tsm-screen.c:tsm_screen_newline", "src/tsm/tsm-screen.c:tsm_screen_set_margins", "src/tsm/tsm-vte.c:csi_mode", "src/tsm/tsm-vte.c:save_state", "src/tsm/tsm-vte.c:restore_state", "src/tsm/tsm-screen.c:tsm_screen_tab_right"]}
{"id": "C86", "title": "A program can always recover the terminal", "statement": "Whatever bytes an emulator has been fed, even if they stopped in the middle of a character, a control sequence or a string, after one more byte below 128 it is between two characters; two CAN characters return the parser to its ground state; CAN and ESC c bring the emulator into the state of power-on, and what a program shows after that does not depend on anything that happened before. No such recovery is ever unsafe.", "quantifier": "for every reachable state of the emulator, every screen size, every following program of text and commands", "why_tests_cant": "The states to recover from are all combinations of parser states, partial characters, modes, character sets, margins and screens; a test tries a few of them.", "anchors": ["src/tsm/tsm-vte.c:tsm_vte_input", "src/tsm/tsm-vte.c:parse_data", "src/tsm/tsm-vte.c:tsm_vte_hard_reset", "src/tsm/tsm-unicode.c:tsm_utf8_mach_feed"]}
{"id": "C87", "title": "Input drives the screen only through its interface", "statement": "Whatever bytes are fed to the emulator, the screen afterwards is one that a sequence of valid calls of the public screen interface produces from the screen before; none of these calls changes the size, the size or the view of the scrollback or the selection, and none draws. The screen of an emulator therefore is at any time in a state that calls of the screen alone can reach.", "quantifier": "for every sequence of calls and every byte stream", "why_tests_cant": "It is a statement about all states an emulator can bring its screen into; a test sees the screens of some recorded streams only.", "anchors": ["src/tsm/tsm-vte.c:tsm_vte_input", "src/tsm/tsm-vte.c:parse_data", "src/tsm/tsm-vte.c:tsm_vte_handle_keyboard", "src/tsm/tsm-vte.c:tsm_vte_handle_mouse"]}
{"id": "C88", "title": "Ptys neither leak nor misuse file descriptors", "statement": "A program that uses a pty only while it holds a reference and closes only its own files never makes the library use or close a file descriptor that does not belong to the pty, or use a freed object. Every pty that is held and not closed has exactly one open descriptor, the one shl_pty_get_fd() returns, and no other descriptor of a pty is open; a failed shl_pty_open() leaves all descriptors as they were, whichever system call failed; after the last unref nothing is left; the program's own descriptors are never touched.", "quantifier": "for every sequence of calls (below 2^64), every failing system call, every table of descriptors at the start", "why_tests_cant": "Descriptor numbers are reused at once, so a double close or a leak shows only in a program that happens to open something else in between, and the error paths need system calls that fail.", "anchors": ["src/shared/shl-pty.c:shl_pty_open", "src/shared/shl-pty.c:shl_pty_unref", "src/shared/shl-pty.c:shl_pty_close", "src/shared/shl-pty.c:shl_pty_get_fd"]}
{"id": "C89", "title": "A program started on a pty gets it as its terminal", "statement": "If all system calls succeed, shl_pty_open() returns a handle, and the program executed by the child has the slave side as its standard input, output and error; apart from these it has exactly the descriptors that the parent passes to any program it executes, in particular none of the master side of any pty.", "quantifier": "for every table of open descriptors of the caller", "why_tests_cant": "Tests run with the standard descriptors open; which numbers the new descriptors get depends on what the caller has open.", "anchors": ["src/shared/shl-pty.c:shl_pty_open", "src/shared/shl-pty.c:pty_init_child", "src/shared/shl-pty.c:pty_setup_child"]}
{"id": "C90", "title": "The pty bridge has an event for every pty with waiting input", "statement": "Whenever output of a child waits to be read from a pty in the bridge, the bridge has an event for it, so that a caller that dispatches the bridge on events reads everything; a pty that was removed from the bridge stays out until it is added again.", "quantifier": "for every history of calls, output of the children and results of read and write", "why_tests_cant": "The event is lost only when more data waits than is read in one dispatch, which depends on the timing between child and parent.", "anchors": ["src/shared/shl-pty.c:shl_pty_bridge_dispatch_pty", "src/shared/shl-pty.c:shl_pty_bridge_dispatch", "src/shared/shl-pty.c:shl_pty_bridge_add", "src/shared/shl-pty.c:pty_read"]}
{"id": "C91", "title": "The renderer of gtktsm stays in its buffers", "statement": "Whatever cells a screen passes to the renderer, whatever the metrics of the fonts and the pictures of their glyphs, and in whatever order the window is resized, the font is changed and the screen is drawn, the renderer never writes outside of its shadow buffer and never reads outside of the buffer of a glyph.", "quantifier": "for every sequence of resizes, font changes and drawings, all sizes, all cells and all glyphs", "why_tests_cant": "Whether a store is inside depends on clipping arithmetic for every combination of window size, cell position and glyph size; a store outside need not crash.", "anchors": ["src/gtktsm/gtktsm-terminal.c:renderer_realloc", "src/gtktsm/gtktsm-terminal.c:renderer_fill", "src/gtktsm/gtktsm-terminal.c:renderer_highlight", "src/gtktsm/gtktsm-terminal.c:renderer_blend", "src/gtktsm/gtktsm-terminal.c:renderer_draw_cell", "src/gtktsm/gtktsm-terminal.c:gtktsm_glyph_new"]}
{"id": "C92", "title": "Blending a glyph mixes the two colours by its coverage", "statement": "After blending a glyph, each pixel of it inside of the window has, in each channel, the mean of background and foreground weighted by the coverage of the glyph there, rounded to the nearest integer: exactly the background where it covers nothing, exactly the foreground where it covers all; no other pixel of the window changes.", "quantifier": "for all glyphs of all three pixel formats, all colours, positions and window sizes", "why_tests_cant": "The rounding trick replaces a division by 255; that it is right for all 2^24 combinations of coverage and colours, for every pixel of every glyph, is not covered by samples.", "anchors": ["src/gtktsm/gtktsm-terminal.c:renderer_blend"]}
{"id": "C93", "title": "Drawing only what changed shows what drawing everything would show", "statement": "The renderer of gtktsm redraws only the cells that the screen reports as newer than the last drawing, and keeps glyphs once rendered. After every drawing, each pixel of the window that belongs to a cell is nevertheless the same as if the whole screen were drawn into an empty buffer with empty glyph caches; that is, the picture is a function of the screen, the fonts and the colours only.", "quantifier": "for every history of calls on the screen, window resizes, font changes and drawings, all glyph pictures and all pixels", "why_tests_cant": "Which cells may be skipped depends on the whole history since the last drawing; a stale pixel shows only for particular interleavings of writes, cursor moves, wide characters and drawings.", "anchors": ["src/gtktsm/gtktsm-terminal.c:renderer_draw_cell", "src/gtktsm/gtktsm-terminal.c:gtktsm_renderer_draw", "src/gtktsm/gtktsm-terminal.c:gtktsm_face_render", "src/gtktsm/gtktsm-terminal.c:terminal_set_font", "src/tsm/tsm-render.c:tsm_screen_draw"]}
{"id": "C94", "title": "The child's terminal has the size of the screen", "statement": "In gtktsm the screen and the pty of the child have the same number of columns and rows, namely as many whole cells as fit into the window, and at least one, so that programs that ask the kernel for the window size lay out their output as it is displayed.", "quantifier": "for every order of window resizes, font changes, starts and ends of children, input and drawings, and all font metrics", "why_tests_cant": "The size passes through three objects (window, screen, pty) that are updated by different events; every interleaving of these events has to be considered.", "anchors": ["src/gtktsm/gtktsm-terminal.c:terminal_configure_fn", "src/gtktsm/gtktsm-terminal.c:terminal_recalculate_cells", "src/gtktsm/gtktsm-terminal.c:terminal_set_font", "src/gtktsm/gtktsm-terminal.c:gtktsm_terminal_fork"]}
{"id": "C95", "title": "Dragging the mouse selects from the pressed to the released cell", "statement": "Pressing the first button in gtktsm and moving the mouse selects from the cell where the button was pressed to the cell where the mouse is now, wherever it has been in between; releasing keeps the selection, further motion does not change it, and a short click without motion removes it. Nothing is sent to the child by this.", "quantifier": "for every state of the widget, all positions in pixels, all cell sizes and all paths of the mouse", "why_tests_cant": "The paths and the sub-pixel positions are unbounded, and the result depends on conversions of floating point numbers to unsigned integers.", "anchors": ["src/gtktsm/gtktsm-terminal.c:terminal_button_fn", "src/gtktsm/gtktsm-terminal.c:terminal_motion_fn", "src/tsm/tsm-selection.c:tsm_screen_selection_start", "src/tsm/tsm-selection.c:tsm_screen_selection_target"]}
{"id": "C96", "title": "No byte between child and emulator is lost, changed or reordered", "statement": "From the start of a child in gtktsm to its end, the bytes the emulator is given are, in order, exactly those read from the pty, which with the ones not yet read are exactly what the child wrote; what the child can read from its terminal, with what is still queued, is exactly what the emulator has sent since. If only output is processed, the screen is the one that the whole output in one piece would give, however the reads are cut and scheduled. Whatever the emulator sends schedules a dispatch of the pty, so that it is not left in the queue.", "quantifier": "for every widget, every child output, every schedule of reads and partial writes of the kernel and every interleaving with keys, resizes, mouse events and drawings", "why_tests_cant": "Schedules of the kernel and interleavings are unbounded.", "anchors": ["src/gtktsm/gtktsm-terminal.c:terminal_read_fn", "src/gtktsm/gtktsm-terminal.c:terminal_write_fn", "src/gtktsm/gtktsm-terminal.c:terminal_bridge_fn", "src/gtktsm/gtktsm-terminal.c:terminal_idle_fn", "src/shared/shl-pty.c:shl_pty_dispatch", "src/tsm/tsm-vte.c:tsm_vte_input"]}
{"id": "C97", "title": "A key either moves through the scrollback or is sent to the child", "statement": "In gtktsm, Up, Down, Page_Up and Page_Down with Shift as the only modifier move the view by one line or one screen, within the scrollback, and send nothing. Any other key queues for the child exactly the bytes of the key, after an ESC if Alt is held, and returns the view to the live screen; keys without bytes do nothing.", "quantifier": "for every state of the widget, all 2^32 modifier states, all consumed modifiers, all keysyms and characters", "why_tests_cant": "The modifier states, keysyms and modes are far too many to be enumerated together.", "anchors": ["src/gtktsm/gtktsm-terminal.c:terminal_key_fn", "src/tsm/tsm-vte.c:tsm_vte_handle_keyboard", "src/tsm/tsm-screen.c:tsm_screen_sb_up"]}
{"id": "C98", "title": "The window title is the last one the child has set", "statement": "gtktsm sets the title of its window exactly for the OSC strings 2;TITLE of the child, to TITLE, in order; nothing else in the output sets a title. A title of printable characters of at most 125 bytes arrives unchanged however the output is cut into reads, and the screen is not changed by it.", "quantifier": "for every widget, every output, every schedule of reads, all titles", "why_tests_cant": "The strings and the ways to cut them into reads are unbounded.", "anchors": ["src/gtktsm/gtktsm-terminal.c:terminal_osc_fn", "src/tsm/tsm-vte.c:do_osc_end"]}
{"id": "C99", "title": "Whatever changes the picture requests a redraw", "statement": "Whenever an event of gtktsm changes the screen, the fonts, the shadow buffer or the debugging mode, and thus what a drawing shows, a redraw is pending until the next drawing.", "quantifier": "for every widget and every sequence of events", "why_tests_cant": "It is a statement about all interleavings of events between two drawings.", "anchors": ["src/gtktsm/gtktsm-terminal.c:terminal_draw_fn", "src/gtktsm/gtktsm-terminal.c:terminal_set_property", "src/gtktsm/gtktsm-terminal.c:terminal_read_fn", "src/gtktsm/gtktsm-terminal.c:terminal_key_fn", "src/gtktsm/gtktsm-terminal.c:terminal_motion_fn"]}
{"id": "C100", "title": "No event makes the widget do anything undefined", "statement": "gtktsm can be created, and after any events the next one is handled without undefined behaviour of the widget's own code: no access outside its buffers, no conversion out of range, no call of the library outside its preconditions. It ends with an error message only where memory, a font or room in the queue of the pty is missing.", "quantifier": "for every sequence of resizes, drawings, property changes, keys, mouse events, starts and ends of children and output of children", "why_tests_cant": "Memory safety over all event sequences, sizes, fonts and outputs cannot be sampled.", "anchors": ["src/gtktsm/gtktsm-terminal.c:gtktsm_terminal_init", "src/gtktsm/gtktsm-terminal.c:terminal_configure_fn", "src/gtktsm/gtktsm-terminal.c:terminal_draw_fn", "src/gtktsm/gtktsm-terminal.c:terminal_button_fn", "src/gtktsm/gtktsm-terminal.c:terminal_motion_fn", "src/gtktsm/gtktsm-terminal.c:terminal_key_fn"]}
{"id": "C101", "title": "Scrollback and screen are the end of what a program has printed", "statement": "Whatever a program prints line by line (text, colours, tabs, CR, LF, BS, NEL, erasing and editing in the current row, wrapping at the right margin), the lines of the scrollback followed by the rows of the screen are exactly the last rows of what it would have printed on an endless roll of paper, at most as many as the limit of the scrollback and the screen together; the cursor is at the same place of the roll, and looking back by n lines shows the rows n further up. More generally the scrollback receives exactly the rows that leave the scroll region of the main screen at its top, each as it was when it left.", "quantifier": "for every reachable state with default character sets and no unfinished sequence, every screen size and scrollback limit, every finite sequence of commands, provided memory for lines is available", "why_tests_cant": "Output of any length has to be considered, with every place where a line wraps, scrolls out or is evicted; a test can compare some recordings only.", "anchors": ["src/tsm/tsm-vte.c:tsm_vte_input", "src/tsm/tsm-screen.c:tsm_screen_newline", "src/tsm/tsm-screen.c:screen_scroll_up", "src/tsm/tsm-screen.c:link_to_scrollback", "src/tsm/tsm-screen.c:tsm_screen_sb_up", "src/tsm/tsm-render.c:tsm_screen_draw"]}
{"id": "C102", "title": "The window shows what the program has printed", "statement": "Let a program running in the terminal widget reset the terminal and then print text, control characters and control sequences (without scroll regions, wide characters, origin mode, alternate screen, own tab stops and saved positions, for which the emulator is known to deviate, see C85). As soon as its output has been read, in whatever portions and with whatever redraws in between, even in the middle of a control sequence, and the window is redrawn while the live screen is in view and nothing is selected, every pixel of every cell of the window is opaque and has the colour that belongs to the character and the attributes that a reference terminal has at this place after these commands, the cell of the cursor in reverse unless the program has hidden it, and all cells in reverse if the program has reversed the screen. This holds although each redraw paints only the cells that have changed since the one before, and whatever resizes, key presses, mouse events, output and redraws came before, as long as the redraws since the last resize were of the live screen. With selections, wide characters and after any other output, the pixels belong to what the emulator has in its cells.", "quantifier": "for every history of a widget, every window and font size (the faces with cells of the same size), every font, every finite program output and every way it is split into reads", "why_tests_cant": "Every pixel of every window size after any history of incremental redraws has to be considered, for programs of any length; a test compares a few screenshots.", "anchors": ["src/gtktsm/gtktsm-terminal.c:terminal_draw_fn", "src/gtktsm/gtktsm-terminal.c:gtktsm_renderer_draw", "src/gtktsm/gtktsm-terminal.c:renderer_draw_cell", "src/gtktsm/gtktsm-terminal.c:terminal_configure_fn", "src/gtktsm/gtktsm-terminal.c:terminal_read_fn", "src/shared/shl-pty.c:shl_pty_dispatch", "src/tsm/tsm-vte.c:tsm_vte_input", "src/tsm/tsm-render.c:tsm_screen_draw"]}
{"id": "C103", "title": "Characters take the columns that Unicode gives them", "statement": "For every code point, tsm_ucs4_get_width returns the number of columns that follows from the Unicode character database (version 15.0): 0 for control characters, nonspacing and enclosing marks (and the format characters listed in the code), 2 for East Asian wide and fullwidth characters, 1 for all others; tsm_screen_write advances the cursor by that number. So the positions of characters on the screen are those that programs compute.", "quantifier": "for all code points and all screens", "why_tests_cant": "There are over a million code points and two tables with hundreds of intervals that are searched by bisection; a test can only look at samples.", "anchors": ["external/wcwidth/wcwidth.c:wcwidth", "external/wcwidth/wcwidth.c:intable", "external/wcwidth/wcwidth.c:ZERO_WIDTH", "external/wcwidth/wcwidth.c:WIDE_EASTASIAN", "src/tsm/tsm-unicode.c:tsm_ucs4_get_width", "src/tsm/tsm-screen.c:tsm_screen_write"]}
{"id": "C104", "title": "A program's last output is shown", "statement": "Programs run in a gtktsm widget one after the other (gtktsm_terminal_fork, end of the child, fork again). Everything each program has printed before its end is given to the emulator, in order, exactly once, and never mixed with the output of another program; the end of a program changes nothing on the screen, and a new program can then be started with an empty input and output queue.", "quantifier": "for all sequences of events of the widget, with any number of programs, any output, any sizes and times of reads, and any interleaving with resizes, keys, mouse and drawing", "why_tests_cant": "What is lost depends on the order in which the main loop notices the end of the child and the output in the pty; a test sees one order, usually the lucky one.", "anchors": ["src/gtktsm/gtktsm-terminal.c:terminal_child_fn", "src/gtktsm/gtktsm-terminal.c:gtktsm_terminal_fork", "src/gtktsm/gtktsm-terminal.c:terminal_read_fn", "src/gtktsm/gtktsm-terminal.c:terminal_idle_fn", "src/shared/shl-pty.c:shl_pty_close", "src/shared/shl-pty.c:shl_pty_bridge_remove"]}
{"id": "C105", "title": "Tables of strings are searched by text", "statement": "A table made with shl_htable_init_str is a bag of elements that is searched by their text: shl_htable_lookup_str and shl_htable_remove_str find an element with the given text iff there is one, whether or not texts have the same hash value, also for elements with equal texts and for texts with bytes above 0x7f, and visit and clear report every element as often as it is stored. Passing a variable for the hash value, so that it is computed only once, changes nothing, as long as the variable is used for one string until it is set to zero again.", "quantifier": "for all histories of calls with elements whose addresses lie between two powers of two (or can otherwise be stored together, see C64), all texts, all patterns of failing allocations and all such uses of hash variables", "why_tests_cant": "The outcome depends on collisions, on the growth of the table and on which calls find a hash value already computed; tests reach few combinations.", "anchors": ["src/shared/shl-htable.h:shl_htable_hash_str", "src/shared/shl-htable.h:shl_htable_lookup_str", "src/shared/shl-htable.h:shl_htable_insert_str", "src/shared/shl-htable.h:shl_htable_remove_str", "src/shared/shl-htable.c:shl_htable_rehash_str", "src/shared/shl-htable.c:shl_htable_compare_str"]}
{"id": "C106", "title": "Arithmetic helpers are exact", "statement": "shl_mult_u8, u16, u32, u64, u, ul and ull store the product and return 0 if it fits into the type, and otherwise leave the variable as it is and return -ERANGE. SHL_ALIGN_POWER2 returns the least power of two that is not smaller than its argument, and 0 if the argument is 0 or there is none.", "quantifier": "for all values of the types", "why_tests_cant": "The interesting values are at the limits of ranges with up to 2^128 pairs of arguments.", "anchors": ["src/shared/shl-macro.h:SHL__REAL_MULT", "src/shared/shl-macro.h:SHL__UPCAST_MULT", "src/shared/shl-macro.h:shl_mult_u32", "src/shared/shl-macro.h:shl_mult_u64", "src/shared/shl-macro.h:SHL_ALIGN_POWER2"]}
{"id": "C107", "title": "A terminal widget owns what it registers", "statement": "Whatever the application, GTK and the main loop do with a widget of gtktsm, nothing that it released is used or released again, no callback runs for a widget that was destroyed, and no source is removed that is not registered. While it exists there is exactly one watch of its bridge, at most one idle source, and a pty and the watch of a child exactly while a child was started that has not ended; when the emulator has answered to a child, an idle source is registered that sends the answer. Once it is destroyed, at any moment, also in the signal that its child has ended, none of its sources is registered and none of its objects exists. Each child that it started is waited for.", "quantifier": "for all sequences of calls, callbacks of registered sources in any order, answers of the emulator, failures of fonts, ptys and memory, and moments of destruction", "why_tests_cant": "Tests of a graphical program do not reach all orders of callbacks and destruction, and a leak or a use of freed memory often has no visible effect.", "anchors": ["src/gtktsm/gtktsm-terminal.c:terminal_finalize", "src/gtktsm/gtktsm-terminal.c:terminal_child_fn", "src/gtktsm/gtktsm-terminal.c:terminal_idle_fn", "src/gtktsm/gtktsm-terminal.c:terminal_write_fn", "src/gtktsm/gtktsm-terminal.c:terminal_bridge_fn", "src/gtktsm/gtktsm-terminal.c:terminal_set_font", "src/gtktsm/gtktsm-terminal.c:gtktsm_terminal_fork", "src/gtktsm/gtktsm-terminal.c:gtktsm_terminal_init"]}
{"id": "C108", "title": "A program reads what the user typed, in the modes it asked for", "statement": "In a session in which a program prints and the user types into the gtktsm window, in any order, what the program gets to read is exactly the answers to its questions and the keys that were typed, in order and without a byte between them, each key encoded as the terminal of the manuals encodes it in the modes that the program's output has selected up to that moment (cursor keys, keypad, newline mode), with ESC in front for Alt. Keys that move through the scrollback (Shift with Up, Down, Page_Up, Page_Down) are not seen by the program, and keys change nothing of the screen. At every moment the drawn window shows what the program has printed.", "quantifier": "for all reachable states of the window, all sequences of turns (a program prints any list of commands, read in any pieces, with drawings in between; any key with any modifiers), all window sizes; after a reset for all plain commands", "why_tests_cant": "What a key sends depends on everything that the program has printed before; reading, writing, drawing and scrolling interleave arbitrarily, and the whole path from the key to the pty must hold for every session of every length.", "anchors": ["src/gtktsm/gtktsm-terminal.c:terminal_key_fn", "src/gtktsm/gtktsm-terminal.c:terminal_read_fn", "src/gtktsm/gtktsm-terminal.c:terminal_write_fn", "src/tsm/tsm-vte.c:tsm_vte_handle_keyboard", "src/tsm/tsm-vte.c:csi_mode", "src/tsm/tsm-vte.c:csi_dsr", "src/shared/shl-pty.c:shl_pty_dispatch", "src/shared/shl-pty.c:shl_pty_write"]}
{"id": "C109", "title": "The frames of show-dirty mark what is drawn anew", "statement": "With the property show-dirty of the gtktsm widget, a drawing surrounds exactly the cells that are newer than the last drawing with a red frame of one pixel, cut off at the edge of the window, among them every cell that does not look as in the last drawing. All other pixels of the cells show what the screen has there, whatever was drawn before and however fonts and window were changed. When the property is switched off again, the frames disappear with the next drawing.", "quantifier": "for all sequences of calls, resizes, font changes and drawings with and without the property, all cells and pixels, all window sizes and cell sizes", "why_tests_cant": "Which cells are framed depends on ages of lines, cells and the whole screen after an arbitrary history, and the frame of a cell must not touch a pixel of another cell for any size of cells and window.", "anchors": ["src/gtktsm/gtktsm-terminal.c:renderer_highlight", "src/gtktsm/gtktsm-terminal.c:renderer_draw_cell", "src/gtktsm/gtktsm-terminal.c:terminal_set_property", "src/tsm/tsm-render.c:tsm_screen_draw"]}
{"id": "C110", "title": "Everything but typed text is sent in ASCII", "statement": "Everything the emulator sends to the client that the user did not type as a character beyond ASCII is ASCII: answers to requests, strings of function, cursor and keypad keys with any modifiers, Control and Alt combinations and mouse reports contain no byte of 128 or more, so that clients with UTF-8, Latin-1 or 7-bit input read the same. In 7-bit mode this holds for typed characters, too.", "quantifier": "for all reachable states (all character sets, 8-bit modes, local echo, modes of keyboard and mouse), all input bytes, all keys, modifiers, buttons and positions of the mouse, all histories of calls", "why_tests_cant": "Controls are sent in 7- or 8-bit form depending on modes that the client can set, characters that are sent depend on tables and modes, and the set of inputs that lead to an answer is infinite.", "anchors": ["src/tsm/tsm-vte.c:vte_write_debug", "src/tsm/tsm-vte.c:tsm_vte_handle_keyboard", "src/tsm/tsm-vte.c:tsm_vte_handle_mouse", "src/tsm/tsm-vte.c:csi_dsr", "src/tsm/tsm-vte.c:csi_dev_attr"]}
{"id": "C111", "title": "Properties of the widget read back and take effect", "statement": "Each property of the gtktsm widget (font, sb-size, anti-aliasing, subpixel-order, show-dirty, debug) can be set to each value of its type at any time and reads back as that value; nothing but setting it changes it. The faces in use are always those for the font, mode and order that the properties tell, the scrollback of the screen always keeps as many rows as sb-size tells, and a drawing has frames exactly if show-dirty is on.", "quantifier": "for all histories of the widget from its creation (setting properties before and after the start of a child, input, keys, mouse, resizes, drawings, end of children), all fonts, all values", "why_tests_cant": "That a property and what is in use never differ is an invariant over all orders of setting properties, creating faces, forking and resizing; a test samples a few orders.", "anchors": ["src/gtktsm/gtktsm-terminal.c:terminal_set_property", "src/gtktsm/gtktsm-terminal.c:terminal_get_property", "src/gtktsm/gtktsm-terminal.c:terminal_set_font", "src/gtktsm/gtktsm-terminal.c:gtktsm_terminal_fork"]}
{"id": "C112", "title": "All of the window is painted", "statement": "After a drawing, each pixel of the gtktsm window is either a pixel of a cell, taken from the shadow buffer, or belongs to no cell and is black (the default background); before there is a font all of it is black. No pixel shows memory that was never written to, although the shadow buffer is allocated without being cleared.", "quantifier": "for all histories of the widget (output of children, keys, resizes, font changes, drawings), all sizes of window and cells, all pixels; also if the cells do not fit into the window", "why_tests_cant": "Whether a pixel was ever written depends on which cells every drawing since the last resize has skipped, and uninitialised memory usually looks like a cleared buffer in a test.", "anchors": ["src/gtktsm/gtktsm-terminal.c:gtktsm_renderer_draw", "src/gtktsm/gtktsm-terminal.c:renderer_realloc", "src/gtktsm/gtktsm-terminal.c:terminal_draw_fn", "src/gtktsm/gtktsm-terminal.c:renderer_draw_cell"]}
{"id": "C113", "title": "A pty may be used from its own input callback", "statement": "The input callback of a pty can call every function of that pty: write, close, take or drop references, or dispatch again. All bytes are still delivered once and in order in both directions, nothing is delivered or sent after the pty was closed, a callback that drops the last reference does no harm, and the bytes passed to a callback stay as they are until it returns. Errors and the end of the other side are returned by the dispatch that meets them.", "quantifier": "for all programs of such calls, callbacks nested to any depth, and all outcomes of the system calls made by the running dispatches", "why_tests_cant": "Calls from callbacks can be nested in arbitrary ways between the reads and writes of a dispatch, and a use after free usually goes unnoticed in a test.", "anchors": ["src/shared/shl-pty.c:shl_pty_dispatch", "src/shared/shl-pty.c:pty_read", "src/shared/shl-pty.c:pty_write", "src/shared/shl-pty.c:shl_pty_unref", "src/shared/shl-pty.c:shl_pty_close"]}
{"id": "C114", "title": "A line typed and corrected reaches the program as it was meant", "statement": "If a user types characters into a gtktsm window, corrects them with Backspace and finishes lines with Return, the program that runs in it reads exactly the corrected lines: the Backspace key is the erase character of the child's terminal, and removes one whole character, however many bytes it has in UTF-8.", "quantifier": "for all sequences of characters, Backspaces and Returns, interleaved in any way with output of the program and with moving through the scrollback; for all attributes of the terminal that the setup leaves alone", "why_tests_cant": "It depends on three separate pieces (key table, pty setup, line discipline) agreeing for every character and every order of keys; the tests check none of them together.", "anchors": ["src/shared/shl-pty.c:pty_setup_child", "src/tsm/tsm-vte.c:tsm_vte_handle_keyboard", "src/gtktsm/gtktsm-terminal.c:terminal_key_fn"]}
{"id": "C115", "title": "A command line of gtktsm opens one window with what it asks for", "statement": "Each run of gtktsm with accepted arguments opens exactly one new window whose font, scrollback size, anti-aliasing, subpixel order, show-dirty and debug mode are those of its options (or the defaults), in which the user's shell runs with the environment and the directory of that command, and no other window is affected. A refused argument is reported by name with result 1, opens no window and starts no program.", "quantifier": "for all options and arguments, all environments, and all states of a running application: any windows, any commands before, any events in the windows", "why_tests_cant": "There are no tests of the program; the values pass through three layers (dictionary, properties, widget) in every combination, and depend on which process handles the command.", "anchors": ["src/gtktsm/gtktsm-app.c:app_command_line", "src/gtktsm/gtktsm-app.c:app_handle_local_options", "src/gtktsm/gtktsm-win.c:gtktsm_win_run", "src/gtktsm/gtktsm-win.c:win_stopped_fn"]}

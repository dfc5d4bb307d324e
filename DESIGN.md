# Formal model of libtsm: design

Source under study: `/repo` (Aetf/libtsm), read as text, never built or run.
All Lean code lives in `lean/Verif/`.

## 1. Approach

* The C code is transcribed function by function into small total computable
  Lean functions over explicit state records (`Verif/Model/*`). Every
  definition cites the C file and lines and says where it simplifies.
* Undefined behaviour is a value, not an assumption: model functions that can
  index memory return `R α := Except UB α`; each out-of-bounds access, use
  after free, bad shift, invalid `free` or oversized `memmove` is
  `Except.error k` with `k : UB` naming the kind. Safety theorems say which
  kinds can never occur; violations are proved with concrete witnesses.
* Unsigned arithmetic that can wrap is modelled with explicit `% 2^32` or
  `% 2^64`. Allocation failure is modelled by an oracle `Nat → Bool` inside the
  screen (allocation number n succeeds iff the oracle says so), so theorems
  hold for every pattern of allocation failures. `Screen.MemOk` (the oracle
  always says yes) is assumed only where a theorem says that scrolled-off lines
  do arrive in the scrollback.
* Properties are stated in `Verif/Props/*` in terms of API calls and observable
  effects: the cell shown at a position, cursor, scrollback text, bytes written
  by callbacks. Small specification functions live in `Verif/Spec/*` and do not
  use the model's helpers. Helper lemmas live in `Verif/Proofs/*`.
* The screen is observed through `Screen.view` (`Spec/View.lean`): functions
  from positions to cells plus the values the getters report. Theorems about
  one call give the whole view afterwards, so "and nothing else changes" is
  part of each of them.
* `Screen.Reachable s`: some history of valid calls from `tsm_screen_new`, with
  some allocation oracle, ends in `s`. `Vte.Reachable v` likewise for histories
  of emulator and screen calls. All theorems quantify over reachable states, so
  their invariants are not assumptions.
* Every property theorem is accompanied by a non-trivial example that meets its
  hypotheses (`example`s next to it, evaluated by the kernel).
* Naming: `Cnn_…`; `_partial` if a hypothesis goes beyond the property's text;
  `_false…` for a proved negation of the property or of a claim one could expect.

## 2. Trusted base

* The Lean 4 kernel (4.33.0). Axioms: at most `propext`, `Classical.choice`,
  `Quot.sound`; section 6 lists them for every theorem. Only the Lean core
  library is imported.
* The transcription C -> Lean, which is manual; tables (character widths,
  character sets, palettes, key tables) are generated by scripts from the C text
  (`tools/gen_vte_tables.py`) and committed as Lean modules.
* Platform assumptions: LP64 with 32-bit `int`; signedness of plain `char` is a
  parameter of the model (`sg`). `tsm_age_t` (`uint_fast32_t`) is 64 bits wide
  (x86-64 glibc). `malloc` never returns more than `PTRDIFF_MAX` bytes.
* Valid calls (`Call.Valid`): `unsigned int` arguments below 2^32, screen sizes
  below 2^30 in each direction (so that sums of sizes do not wrap).

### Modelled

| C file | modelled parts | Lean |
|---|---|---|
| src/tsm/tsm-unicode.c | all functions except refcounts and freeing | Model/Utf8, Model/Symbol |
| external/wcwidth/wcwidth.c | `bisearch`/`intable`, `wcwidth`, both tables | Model/Wcwidth, WcwidthTables |
| src/tsm/tsm-screen.c, libtsm-int.h | all functions that change or read the screen | Model/Screen, ScreenOps, ScreenApi |
| src/tsm/tsm-render.c | `tsm_screen_draw` | Model/Render |
| src/tsm/tsm-selection.c | all functions | Model/Selection |
| these three files | the functions that handle pointers to lines once more, with addresses, links, `malloc` and `free`; creation and destruction | Model/Heap |
| tsm-screen.c, tsm-vte.c, tsm-unicode.c | creation, `ref`, `unref` and palettes once more, with the objects and their counters | Model/Lifetime |
| src/tsm/tsm-vte.c | UTF-8 input, parser, dispatch, modes, replies, keyboard, mouse, palettes, creation and reset | Model/Vte, VteApi, VteTables |
| src/tsm/tsm-vte-charsets.c | all tables | Model/VteTables |
| src/shared/shl-ring.c, shl-array.h, shl-htable.c, shl-htable.h, the arithmetic of shl-macro.h | all operations | Model/Shared/* |
| src/shared/shl-pty.c | `shl_pty_write`, `pty_write`, `pty_read`, `shl_pty_dispatch`, `shl_pty_close`, with the kernel as an environment | Model/Shared/Pty |
| src/shared/shl-pty.c | `shl_pty_open` with its error paths and the child's side, `ref`, `unref`, `close`, `get_fd`, over the tables of descriptors of both processes | Model/Shared/PtyLife |
| src/shared/shl-pty.c | the same functions and `ref`, `unref` called from the input callback, to any depth | Model/Shared/PtyNest |
| src/shared/shl-pty.c | the attributes set by `pty_setup_child` | Model/Shared/PtySetup |
| src/shared/shl-pty.c | the bridge, with an edge-triggered epoll set | Model/Shared/Bridge |
| src/gtktsm/gtktsm-terminal.c | faces and glyphs, the shadow buffer and drawing into it (`renderer_*`, `gtktsm_face_*`) | Model/Gtk/Renderer |
| src/gtktsm/gtktsm-terminal.c | the widget: creation, configure, draw, font, properties, key, mouse, fork, read, write, title, idle, bridge, end of the child | Model/Gtk/Widget |
| src/gtktsm/gtktsm-terminal.c | copying the shadow buffer to the window, the margin (`gtktsm_renderer_draw`, `terminal_draw_fn`); cairo's rule for filling is trusted | Model/Gtk/Paint |
| src/gtktsm/gtktsm-terminal.c | the properties: `terminal_get_property`, `terminal_set_property`, the choice of faces | Model/Gtk/Settings |
| src/gtktsm/gtktsm-app.c, gtktsm-win.c, gtktsm.c | the options, the windows of the application and the programs in them | Model/Gtk/App |
| src/gtktsm/gtktsm-terminal.c | the objects, GLib sources and children of the widget once more, with its destruction | Model/Gtk/Life |

### Not modelled

* Logging (`llog_*`). Allocation and `free` of the lines of a screen are in
  `Model/Heap.lean`, those of the other objects and reference counting in
  `Model/Lifetime.lean`; the `free` calls of the containers are not modelled.
* Window size and signals of shl-pty.c (`ioctl`), tests, shl-llog, shl-timer and
  the like. Of gtktsm the renderer and the widget are modelled; GTK, pango and cairo are parameters: the metrics of a font and the
  pictures of its glyphs are arbitrary, sizes are below 32768 as in cairo's image surfaces. Events are handled one after
  the other, as GLib does; `g_error` ends the program and is an outcome of its own. The translation of key codes by GDK
  and `xkb_keysym_to_utf32` are parameters. Mouse positions are `double`s in C; here they are whole multiples of 1/65536
  pixel, for which the quotients have the same integral part. Not modelled of gtktsm: how the window around
  the widget looks, GApplication, the GObject machinery, the clipboard (there is none), `terminal_log_fn` and the message that the property `debug` shows. In
  `Model/Gtk/Life.lean` the emulator and screen are one object each (their counters are those of C82); the handler of the title does
  not destroy the widget in the middle of input.
* The row of a selection endpoint (`int`) does not wrap when text is scrolled down; it would after 2^31 rows. Entries of the tab ruler that
  a failed resize left uninitialised are `false`.
* Re-entrancy of user callbacks (a callback that calls back into the library).
  Exception: the pty input callback may queue data for writing.
* NULL-handle early returns of API functions (`if (!con) return`): the model
  functions take an existing object.
* Loops of the hash table and of some scans carry fuel equal to the number of
  slots; running out of it is the distinct outcome `hang`, which is proved not
  to happen.

## 3. Properties

What is modelled for each property and how it is proved. Status and exact
theorem names are in MANIFEST.json.

| id | modelled as | proof idea |
|---|---|---|
| C01 | `Utf8.encode`, `Utf8.feed` fold over bytes | bit arithmetic per length class, induction over the list |
| C02 | `Utf8.encode` | case analysis, arithmetic; prefix-freeness from the first byte |
| C03 | `Utf8.feed` | every state is start-like after an ASCII byte; then C01 |
| C04 | `Utf8.feed` with char signedness | false of the code (overlong forms); negation + partial |
| C05 | `Wcwidth.bisearch` on generated tables; `tsm_symbol_get_width` | loop invariant of bisection for any sorted table; sortedness by kernel evaluation of the whole table; a symbol is as wide as its first character (`C05_symbol`) |
| C06 | `SymTab.append/get` over the models of hash table and array | invariant relating table, index and stored strings over all histories; false (index off by one): the returned symbol never decomposes to its string, the number below it does |
| C07 | `SymTab.append` | same invariant, with C64 for the hash table; false if growing the table or index fails (`free` of an inner pointer) |
| C08 | `Screen` ops in `R` | invariant `Inv`, one lemma per API call, induction over histories; two violations proved as witnesses, all other calls safe |
| C09 | part of `Inv` | same induction |
| C10 | allocation oracle | case analysis of the stages of resize |
| C11 | `Screen.write` | pointwise cell specification |
| C12 | iterated write | induction over the text |
| C13 | `Screen.scrollUp` with chunks of 128 | pointwise specification, induction over chunks |
| C14 | `Screen.scrollDown` | same |
| C15 | `sb` list with ids | relation `View.Fed` (lines appended, oldest dropped), composed over histories |
| C16 | op lemmas | frame lemma per call, induction |
| C17 | `Screen.resize` | pointwise specification |
| C18 | erase loops | pointwise specification; erase_chars wraps for huge counts |
| C19-C20 | insert/delete | pointwise specification |
| C21 | tab loops | loop invariants against an "n-th stop" specification |
| C22-C23 | moves | case analysis; C23 wraps near 2^32 in origin mode |
| C24 | insert mode branch of write | pointwise specification; false for a wide character on a one-column screen |
| C25-C27, C29 | `Screen.draw` | induction over rows and columns |
| C28 | `draw` + all ops | relation on (content, age) kept by every call; two violations with witnesses; with the live screen in view `set_def_attr` is covered too (`C28_live_partial`) |
| C30-C36 | `Selection`, scroll | list lemmas on line ids; several violations with witnesses |
| C37-C38 | sb position | list index of the position; C38 false, witnesses; a right report is kept by every call but `sb_reset` and `set_max_sb` unless lines are dropped under a scrolled-back view (`C38_step_partial`: what linking one line keeps, every call keeps, `Proofs/Screen/SbPos.lean`), and any line pushed on the live screen makes it right again (`C38_heals`) |
| C39 | `Vte.input` | fold over bytes |
| C40 | `Vte` | emulator invariant on top of `Inv`, one lemma per action; all undefined behaviours classified |
| C41 | parser | induction over digit strings with the parser state made explicit |
| C42, C46, C65, C66 | CSI dispatch | parser lemmas of C41, then screen lemmas; for CHA and VPA the exact effect in every mode (`C65_column_effect`, `C65_row_effect`) |
| C43 | parser transitions | table evaluation over all states, plus the UTF-8 machine |
| C44 | OSC collection | induction over characters, buffer as prefix |
| C45 | `sgrLoop` | refinement to a recursive specification on the parameter list (`Spec/Sgr.lean`) |
| C47-C49, C54 | save/restore/reset/1049 | symbolic execution; for the round trips an arbitrary history of calls in between with the frame lemmas of C16 |
| C50 | `parseCnt` | a reply outside input is a distinct outcome, proved impossible |
| C51, C52 | character sets, text | small machine `Charsets` as specification; simulation by induction over items |
| C53 | input modes | masks and sign extension; `C53_text`: what bytes without control characters show in both modes, by induction over the bytes |
| C55-C56 | keyboard | independent description of the keyboard (`Spec/Keys.lean`), compared for every entry of the generated tables, lifted to all keysyms |
| C57-C59 | mouse | decimal printing and parsing; dedup over sequences of events; in pixel mode the buttons of a motion are reported with pixel positions (`C57_pixel_motion_partial`); positions left of the window or above it, given as `unsigned int` and printed with `%d`, decode with their sign (`C57_outside_partial`, `C57_pixel_outside_partial`) |
| C60 | palette; `Spec/Palettes.lean` lists the colours of the named palettes apart from the model | all codes stored anywhere are in range, by invariant; each named palette resolves every colour as published (`C60_colours`), a custom one as set (`C60_custom`) |
| C61 | ring | refinement to a list of bytes |
| C62, C68 | pty | ghost history of accepted, sent and received bytes; invariant over all environments; after closing nothing more is accepted, sent or received (`C62_closed`) |
| C63 | array | refinement to a list |
| C64 | hash table | invariant: every element is reachable from its bucket over occupied slots, perfect bit marks the first slot; insert, doubling, rehash, common-bit change and delete keep it; then a bag of pointers |
| C67 | setters | case analysis |
| C69 | glyph ids of `draw` | the id is a packing of fields that do not overlap, since cells never hold values above 0x7fffffff (from C70's invariant) |
| C70 | all ops | generic invariant "every cell satisfies P", instantiated with "was written earlier or is empty" |
| C71 | all 45 calls of the screen | per function: the part of the state that holds settings is unchanged; no invariant is needed. Extended to sequences of calls by induction |
| C72 | parser, all actions, `send` | every action sends at most one string and only one of the forms of `Answer` (Spec/Trace); summed up over the bytes of the input |
| C73 | all calls of the emulator | agreement of the five pairs of bits is kept by every action (bit by bit for the mode changes) and established by `reset`; induction over histories |
| C74 | parser, `map`, `write` | every call of `write` made while reading a byte writes what `Shows` allows for it, and only in the ground state; the invariant of C70 is instantiated with this. Cells kept outside of the visible area count as stored |
| C75 | `input` | the frame `Ext` of the safety proof and C71 |
| C76 | parser, `do_execute`, `do_esc` | spec: tables `c0`, `c1` of calls (Spec/Controls); evaluation of the parser from an arbitrary state, both forms compared |
| C77 | parser, `do_csi` | spec: table `editing` of calls; C41 for the number, then case by case |
| C78 | `do_csi`, `move_to` | C41, then the exact effect of `move_to` in every mode (`C78_vpr_effect`); false in origin mode |
| C79 | parser, `csi_mode`, `do_esc` | spec: tables of modes with their bit and their calls (Spec/Modes); induction over the list. `C79_meaning` says it for the flags keyboard, parser and screen read |
| C80 | parser, `csi_dev_attr`, `do_esc` | C41 for the number, then evaluation |
| C81 | `Model/Heap.lean`: the screen once more with pointers, linked list, allocator, `free` | simulation: a relation between the pointer model and the list model of all other properties, kept by every function; the pointers in use are a permutation of the allocated ones |
| C82 | `Model/Lifetime.lean`: screens, symbol tables, terminals, decoders, palettes as heap objects with reference counters; `Spec/Lifetime.lean`: the rules for references, without counters | the heap is described as a list of addresses with objects (as in separation logic); invariant: it is the concatenation of the memory of the objects needed, and counters are the numbers of references and users |
| C83 | the modes of the mouse in `Model/Vte.lean`; `Spec/Tracking.lean`: what an embedder knows from the last call of the callback, and what a program has asked for | invariant over all calls (as part of the description of all actions in `Proofs/Vte/Trace.lean`): if anything can be reported, the last call of the callback told about the current events and encoding; induction over the list of modes. False: the callback is not told about the end of tracking by `CSI ? 1006 l`, `CSI ? 9 l` and resets (`C83_stop_false_*`) |
| C84 | parser with an intermediate character, `csi_compat_mode`; `Spec/Level.lean`: the levels | C49 for the reset, C41 for the numbers, then evaluation |
| C85 | parser, text, editing, SGR and margins together; `Spec/Canvas.lean`: a reference terminal with its commands and their bytes, independent of emulator and screen | refinement: one simulation lemma per command (from C12, C42, C45, C52, C76, C77 and the screen theorems), then induction over the list of commands. The commands include insert, auto-wrap, newline and origin mode, tab stops, the saved cursor, the alternate screen, the character sets G0 and G1 (via C51), the visibility of the cursor, the reversed screen the modes of cursor keys and keypad, local echo and requests for status, position and identity, whose answers are part of the claim; other private modes are ignored. Any session after a reset that does not use scroll regions, wide characters, origin mode and the alternate screen, changes no tab stops and no character sets, does not ask for the position and returns to no saved position is covered without exceptions (`C85_plain`). With them the claim is false in some situations (`C85_region_false`, `C85_wide_false`, `C85_tab_false`, `C85_origin_false`, `C85_restore_false`, `C85_leave_false`, `C85_blank_false`, `C85_latin_false`, `C85_position_false`), which `Canvas.Tame` excludes in the `_partial` theorems. Entering the alternate screen when it is already shown is excluded, too, since terminals differ in it |
| C86 | UTF-8 machine and parser; `Parked`: a decoder that is not in use (7-bit and 8-bit modes) is not in the middle of a character | invariant over all calls; an ASCII byte always completes a character; safety from C40 (`C40_ascii_partial`), then C43, C48 and C85 |
| C87 | all calls of the emulator | every action is a list of valid screen calls (the invariant of C40), composed over the history |
| C88 | `Model/Shared/PtyLife.lean`: the descriptors of a process as the kernel keeps them (lowest free number first), objects with counters, every failing system call; `Spec/PtyLife.lean`: what a program keeps track of | one lemma computes `shl_pty_open` for every table and outcome; invariant between objects, descriptors and book-keeping over all sessions |
| C89 | the same, with the child's side of the `fork` and `exec` | the same lemma; which numbers are free decides whether the child's end of the pipe is one of its standard descriptors |
| C90 | `Model/Shared/Bridge.lean`: an edge-triggered epoll set over the ptys of C62/C68; `Spec/Bridge.lean`: an honest kernel | invariant over all histories (no event only if the last dispatch stopped early); bytes left after two reads by length |
| C91 | `Model/Gtk/Renderer.lean`: allocation of the shadow buffer with 32-bit arithmetic, fill, highlight, blend, faces and the glyph cache; the buffer is a function from offsets with a capacity, a store or load outside is a fault; fonts and glyph pictures are arbitrary | the three drawing loops are one function (`paint`); its exact effect by induction over rows and columns (`paint_spec`); invariant (`Sound`) over all sequences |
| C92 | the same | exact effect of the loop, then the arithmetic of the mix for all values of a byte |
| C93 | the model of C91 together with the screen (`tsm_screen_draw` and its ages); sessions of calls, resizes, font changes and drawings (`Spec/Picture.lean`) | invariants: a glyph in a cache is what the font gives (`Faces.Ok`), and each cell not newer than the last drawing is shown (`Painted`, by C28); exact pixel of a cell (`drawCells_at`). `Tidy` names what the code needs: faces with one cell size, wide characters with their covered cell |
| C94 | the widget (Model/Gtk/Widget: every handler of gtktsm-terminal.c as a step over renderer, emulator, pty and window) from its creation (`Live`, Spec/Widget) | invariant `Fit` over all events after a resize that are no resize or font change, with C17 and `realloc_small`; two witnesses |
| C95 | the same model; positions in 1/65536 pixel | `toCell` is floor division for positions that are not negative; press, threshold, motions by induction over the path, with the selection calls of C30; three witnesses; with C31, which cells of the window are then marked, by position of the mouse: `C95_marked_partial`; double and triple clicks: `C95_double_partial` |
| C96 | the same model with the pty of C62 and the emulator of C39 | per event: the calls of the emulator it makes, what it emits, and how the pty's ghost logs grow (`step_did`), composed over the run; a reply or key is at most 24 bytes (Proofs/Vte/Short), so the queue never overflows a size; then C39; `C96_scheduled` (Proofs/Gtk/Idle): after a send an idle dispatch is scheduled until one has run |
| C97 | the same model; bit vector of modifiers | the mask test is `OnlyShift`; C37 for the view, C55 for the bytes, `writeFn` for the queue |
| C98 | the same model; `setTitles` reads the titles off what the emulator reports | invariant over all events; C44 for the string, C96 for the way through the pty |
| C99 | the same model; `queued` is set by `gtk_widget_queue_draw` | every handler either queues or keeps what drawing depends on (`Due`); one witness |
| C100 | the same model; faults of the widget are a class of errors of their own, apart from those of the library and from `g_error` | invariant `Firm` (shadow buffer sound, press position in range, pty queue well-formed); calls of the screen other than writing and tabs cannot fail; two witnesses |
| C101 | the reference terminal of C85; `Spec/Roll.lean`: which rows leave its scroll region, and a printer that never scrolls but grows | the simulation of C85 carries along which lines each command adds to the scrollback (`View.Adds`); the reference terminal is a window onto the roll (`Canvas.Window`), kept by every line command; `C101_look_back` joins it with C37 and C26. That allocation succeeds is a hypothesis (`MemOk`), since otherwise lines are dropped (C15) |
| C102 | the widget of C94-C100, from the pty to the pixels | `Wid.Tended` (Spec/Window.lean): since the last configure event no fonts were changed and drawings were neat; the invariant of C93 (`SInv`) is kept by every event, since each changes the screen by calls that neither draw nor resize (`Makes.calls`); `C102_cells` gives the pixels in terms of C26, C27, C31 and C92; `C102_start`/`C102_next` join C96, C39 and C85, with drawings anywhere in between (`Wid.Watched`; the 64-bit counter of changes must not have overflowed before one of them); that narrow programs leave narrow cells with colours that are bytes is proved for the reference terminal (`Canvas.Fine`). The glyphs themselves (pango, cairo) are a parameter (`Ink`) |
| C103 | `wcwidth`, `intable` and both tables (C05), `tsm_screen_write` (C11) | `Spec/Unicode.lean` is generated by tools/gen_unicode.py from the character database of Unicode 15.0 that comes with Perl, independently of the tables in the code. **False** for characters added later than Unicode 9.0: each of 294 new marks and 1524 new wide characters takes one column (`C103_new_false`); five older characters have been changed by Unicode. `C103_exactly_partial` proves agreement on all other code points, and disagreement on these. Intervals are compared by a checker that is proved sound (`covers`, `avoids`). Format characters are those that the code lists; others of category Cf, such as U+FEFF, take one column |
| C104 | the events of the widget (C96), with any number of starts and ends of programs | **False**: `terminal_child_fn` closes the pty without reading what is still in it (`C104_lost_false`; `C104_lost_partial` shows that whatever follows, that output never reaches the emulator). `programs` (Spec/Child.lean) says what each program has printed; `C104_programs_partial` proves, by induction over all events, that the emulator is given a first part of the output of each program in turn and nothing else, and exactly the output if all was read at each end. `C104_exit`: the end leaves emulator, renderer and titles as they are and a new program can be started |
| C105 | `shl_htable_*_str` with the hash variables of the caller, on the model of C64 | `Spec/Strings.lean`: a bag searched by text, without hash values; `OneString` is the condition on hash variables. `C105_strings` for all histories, by a simulation of C64 with the invariant that each variable is zero or has the hash value of its string. `C105_reuse` shows that the condition is needed. A string is not changed while it is in the table |
| C106 | `SHL__REAL_MULT`, `SHL__UPCAST_MULT`, `shl_mult_*`, `SHL_ALIGN_POWER2` | `C106_mult` for all values and all sizes of the fast types. `SHL_ALIGN_POWER2` is **false** for 0, 1 and values above 2^63, for each of which the behaviour is undefined (`C106_align_false`); proved between (`C106_align_partial`) |
| C107 | `Gtk.Life`: the objects, GLib sources, epoll set and children of a widget, without contents; GLib runs only registered sources, removes those whose callback returns FALSE and child watches after their call | invariant relating fields, sources and objects, with the source whose callback is running as a parameter; induction over events (`C107_safe`, `C107_sources`, `C107_answers`, `C107_released`, `C107_finalize`). That each child is waited for is **false** (`C107_waited_false`); true unless the widget is destroyed while the child runs (`C107_waited_partial`) |
| C108 | the widget of C94-C102 with its pty; `Spec/Session.lean`: sessions as lists of turns, what the reference terminal shows after them and what the program reads, with the key table of C55 (`Spec/Keys.lean`) in the modes of the reference terminal | one lemma per kind of turn (`C108_typed` from C97 and C55, `C108_paged` from C97 and C38, `C108_printed` from C85, C96 and C102), induction over the turns (`C108_session`); after a reset and for plain commands no further hypotheses are needed (`C108_program`). While the terminal shows typed characters by itself (local echo, `ESC[12l`) nothing is claimed about keys |
| C109 | the model of C93, whose sessions now also have drawings with frames | exact effect of the loop of `renderer_highlight` (`highlight_at`), then of a cell and of all cells (`drawCells_marked`), which does not depend on what the buffer contained; `C109_changed_partial` joins it with C28. That the frames disappear is **false** (`C109_off_false`) |
| C110 | the model of the emulator with its log of what was sent | every function that sends adds only ASCII to the log (`Sevens`, with the traces of Proofs/Vte/Trace); then all calls and, by induction, all histories. For X10 mouse reports it is **false** (`C110_false`) |
| C111 | the properties (Model/Gtk/Settings) around the widget of C94, with an arbitrary function from description, mode and order to faces | invariant over all events (`Term.Inv`): faces are those of the properties up to their caches, the limit of the screen is the property; `C111_works_partial`: setting fails only for missing strings. The claim is **false** for missing and for unknown strings (`C111_false`, `C111_false_unknown`) |
| C112 | `Model/Gtk/Paint.lean`: the copy of the shadow buffer and the path around the part without cells, filled by winding numbers | the path encloses exactly the pixels outside of the cells (`C112_area`, any sizes); with the invariant of C102 every pixel of the cells was written; `C112_program` joins it with C102 to a description of every pixel of the window. Without neat drawings it is **false** (`C112_false_font`, `C112_false_half`) |
| C113 | `Model/Shared/PtyNest.lean`: programs of calls whose dispatches contain the programs of their callbacks, to any depth; `free` makes every later access `dangling`; `Spec/PtyNest.lean`: the rules for references, without counters | induction over programs: one invariant of the dispatch for arbitrary callbacks (`dispatch_keep`), with the references of the callers as a floor of the counter (`C113_order`, `C113_closed`, `C113_safe_partial`); the buffer by a second induction (`C113_buffer_partial`). **False** for callbacks that drop the last reference (`C113_dropped`: always; `C113_false`) and for reading the argument after a nested dispatch (`C113_buffer_false`); what a dispatch returns, for arbitrary callbacks: `C113_returned` |
| C114 | `Model/Shared/PtySetup.lean`: the attributes set by `pty_setup_child`; `Spec/Lines.lean`: the line discipline of Linux in canonical mode (trusted), and a user's editing on lists of characters | induction over the keys, with the shape of UTF-8 forms (one byte that is no continuation, then continuations): `C114_discipline`; with C108 for whole sessions: `C114_program_partial`. **False** if Backspace is set to send DEL (`C114_false_delete`: the pty still erases with Backspace) and in new-line mode (`C114_false_newline`) |
| C115 | `Model/Gtk/App.lean`: the command line, the windows and the programs in them, over `Model/Gtk/Settings`; GApplication's handing over of commands to the running application is trusted | composition of the setters (C111) for all options: `C115_opened`, `C115_refused`, `C115_version`; other windows: `C115_own`, `C115_stopped`; invariant of all windows over all events: `C115_windows_partial`; no stop if a pty and faces can be made: `C115_works_partial`. **False** for environment and directory of later commands (`C115_false`) and if no pty can be opened (`C115_false_fork`) |

Assumptions that remain in theorems marked proved: sizes below 2^30 and 32-bit
arguments (C10, C17 and all histories), less than 2^63 bytes in a ring
(C61; C62 and C68 leave only the outcome `badShift`, which needs that many).

## 4. Disagreements between code, comments and properties

Recorded as found. Those with a property id have a theorem with a concrete
witness; the others are observations made while transcribing.

### Unicode

1. `tsm_symbol_append` hands out identifiers that `tsm_symbol_get` resolves one
   slot too high; no returned symbol ever decomposes to its string (C06).
2. The error paths of `tsm_symbol_append` pass an incremented pointer to `free`
   (C07).
3. On signed-char platforms the overlong check for 0xC0/0xC1 is dead code, and
   three/four byte overlong forms are never checked (C04).
4. The library never calls `tsm_symbol_append` itself and the screen's symbol
   table is private, so cells hold plain code points only. Symbols above
   0x7fffffff have width 0 and are not written.

### Screen

5. Insert mode with a double-width character on a one-column screen calls
   `memmove` with a wrapped length (C08, C24).
6. `tsm_screen_tab_left` reads one past the tab ruler when the cursor is at
   width+1, after a wide character in the last column (C08, C21).
7. `tsm_screen_erase_chars` with a count near 2^32 erases nothing (C18).
8. `tsm_screen_move_to` in relative origin mode wraps for y near 2^32 (C23);
   `sb_page_up/down` wrap in `num * size_y` (C37).
9. `sb_pos_num` drifts on eviction and in fixed-position mode, and is not adjusted by `set_max_sb` and `sb_reset` (C38).
10. Cells exposed on the main screen by a resize get `def_attr_main`, which is
    all zero until the alternate screen has been entered once (C17).
11. Growing the width with a pending wrap moves the displayed cursor without
    marking the old cell as changed (C28); changing the default attribute does
    not mark padding cells of short scrollback lines (C28).
12. A wrap with the cursor below the bottom margin on the last row scrolls the
    margin region although the cursor is outside of it (part of C11's
    specification). The second cell of a wide character keeps its old character.
13. Rows that leave the screen by a narrowing resize are cut in the scrollback.
14. insert/delete lines use a variable-length array of unbounded size on the
    stack (not modelled as undefined behaviour).

### Selection

15. Copying reads `lines[-1]` or beyond the array after scrolling up or down, and
    overflows its buffer for rows of 4-byte characters (C33). The computed buffer
    size wraps for huge scrollbacks.
16. Copying emits NUL bytes for never-written cells inside a row and loses the
    newline if the selection starts right of the last character of its first
    row (C32).
17. `norm_selection` misses the case where the start is the newest scrollback
    line and where both ends lie around the first screen row (C34).
18. Scrolling up moves the endpoints regardless of the margins, and on the
    alternate screen attaches them to unrelated scrollback lines; C35 is for the
    main screen with full margins. Scrolling down can move them off the screen.

### Emulator

19. `csi_attribute` reads `csi_argv[16]` if the 16th parameter is 38 or 48 (C40,
    C45).
20. In 8-bit mode sign extension of plain `char` makes C1 bytes and GR bytes
    unusable where `char` is signed (C53); OSC payload bytes above 0x7f vanish.
21. SUB prints U+00BF (C43). Inside an unfinished UTF-8 character ESC and CAN are
    swallowed (C42, C43, C48, C49).
22. Control characters inside OSC strings are dropped (C44). In strings longer
    than 127 bytes characters that do not fit are skipped, but later shorter ones
    are appended, so the result is not a prefix (`C44_not_a_prefix`).
23. After writing the last column the cursor report gives column width+1 and
    sending it back ends the pending wrap; in origin mode the report is absolute
    but addressing is relative (C46).
24. CHA in origin mode adds the top margin to the row again; VPA ends a pending
    wrap (C65). Restoring the cursor in origin mode adds the top margin, loses a
    pending wrap, and DECSC does not save the designated character sets (C47).
    1049 has the same cursor issues (C54).
25. Intermediates and private markers are ignored by most CSI finals: `CSI SP A`
    acts as CUU, `CSI > 4;2 m` as SGR; `#` and `%` set no flag, so `ESC # 8` acts
    as DECRC (C66), `CSI = c` and `CSI < c` are answered like `CSI c`.
26. SGR: omitted parameters are skipped instead of meaning 0 (C45); an incomplete
    `38;5` handles 5 as blink, `38;2;1;3` sets bold and italic; 29 is not handled;
    colour indices above 255 continue the greys modulo 256; `protect` is never set.
27. The hidden alternate grid is not cleared by RIS; a soft reset leaves the
    alternate screen and resets the tab stops. `alt_cursor_x/y` are not reset by
    `tsm_vte_reset`. `TITE_INHIBIT` is never set; `grt` is never set.
28. National character sets all map to Latin-1's upper half (`ESC ( A` turns A
    into Á); `_` in DEC special graphics is character 0 and prints nothing.
29. Keyboard: 7-bit mode tests only bit 0x80 (U+0141 is sent as A, C55); values
    above 0x7fffffff other than -1 send NUL (C55); KP_Equal sends `/`, the
    application codes of KP_Multiply and KP_Divide are exchanged; code points
    without UTF-8 form send an empty string; Ctrl+@, Ctrl+^, Ctrl+_ have no code.
30. With local echo Alt+Z sends the key without ESC since the reply to the echoed
    `ESC Z` takes the prefix (C56).
31. Mouse: in X10 mode button and modifiers of 224 or more give a NUL byte and
    coordinates near 2^32 wrap (C58); wheel buttons 4 and 5 collide with the shift
    modifier. SGR: the 24-byte buffer truncates large coordinates, motion loses
    modifiers (C57). 1002/1003 without 1006/1016 report nothing; `?9h ?9l` leaves
    tracking on for a later 1006 (C59); disabling any mode disables the active one.
    Pixel mode reports repeated positions and counts from 0.
32. DECSTBM does not home the cursor. In origin mode VPR adds the top margin to the
    row once more (C78).

### Shared

33. `shl_array_zresize` does not zero when the capacity suffices (C63); products of
    sizes can wrap.
34. A hash table loses a pointer whose bits are all bits of the first pointer
    inserted and that lacks its highest bit (C64). `deleted` is not decremented
    when a deleted slot is reused. More than 2^30 slots shift `1 << 31`.
35. `SHL_ALIGN_POWER2` shifts by 64 for sizes above 2^63.
36. `shl_pty_dispatch` drops the return value of `pty_write` (`C62_false_return`).
37. The callback of the mouse is not told when reports end: `CSI ? 1006 l` and `CSI ? 1016 l` pass the old kind of
    events instead of 0 (src/tsm/tsm-vte.c:1717-1719, 1729-1731), `CSI ? 9 l` passes 1002 (1609-1613), after either
    `CSI ? 1002 l` does not call it (1706), and `tsm_vte_reset` never does (815-818). An embedder keeps tracking the
    mouse for nothing (`C83_stop_false_encoding`, `_x10`, `_reset`). The other direction holds (`C83_told`).
38. A line feed, index or next line on the last row of the screen scrolls the scroll region, also if the cursor is
    below the region (`tsm_screen_newline` via `tsm_screen_move_down`, src/tsm/tsm-screen.c; `C85_region_false`);
    likewise a reverse line feed on the first row above the region. Terminals keep the screen as it is.
39. A wide character in the last column is not wrapped to the next row: its left half is written, the right half
    is cut off, and the cursor is two columns right of the last one (`C85_wide_false`).
40. `shl_pty_bridge_dispatch_pty` means to re-arm a pty from which it could not read everything, but uses
    `EPOLL_CTL_ADD` where only `EPOLL_CTL_MOD` works, as the descriptor is in the set already; the error is ignored.
    If more than 32766 bytes wait (or reads are short), the rest is not read before the child writes more (C90:
    `C90_lost_false`). For a pty that was removed from the bridge the same call puts it back (`C90_removed_false`).
41. `shl_pty_bridge_dispatch_pty` returns 0 whatever `shl_pty_dispatch` returned, so that a caller of the bridge does
    not see errors of a pty.
42. If a program that has closed its descriptors 0, 1 and 2 calls `shl_pty_open`, the write end of the pipe is number 2
    and is overwritten in the child by its standard error; the message for the parent goes to the terminal, the parent
    returns -EINVAL, and the child goes on without a standard error (C89: `C89_closed_false`).
43. Right after the last column has been written, setting and clearing the tab stop at the cursor does nothing, as the
    cursor counts as being right of the screen (src/tsm/tsm-screen.c, `tsm_screen_set_tabstop`, `_reset_tabstop`), and a
    backward tab finds a tab stop in the last column itself (`C85_tab_false`). Changing origin mode or the scroll region
    does not move the cursor home; programs have to (the commands `origin` and `region` of `Spec/Canvas.lean` do).

### gtktsm

44. `renderer_realloc` (src/gtktsm/gtktsm-terminal.c:557-558) allocates `abs(stride * height)` bytes, computed with
    32 bits. A window of 2^31 bytes of pixels or more gets a buffer that is too small and is then overwritten
    (32767 x 32767 pixels, which cairo accepts: 262140 bytes; C91: `C91_false`), or calls `abs(INT_MIN)`
    (`C91_false_abs`).
45. The loops of `renderer_fill` and `renderer_highlight` form the address of a row after the last one (not
    dereferenced), and `0xff << 24` shifts into the sign bit of an `int`; both are accepted by GCC and not faults of
    the model.
46. `measure_pango` (192-219) divides the width of its sample text by the number of its bytes (88), but the sample has
    86 characters; from an advance of 44 pixels on, the cells of a monospaced font are narrower than its characters.
47. After `terminal_set_font` (1183-1247) the renderer still skips the cells drawn with the old font, as `rend->age` is
    not reset (C93: `C93_false_font`); nor are screen and pty resized to the new cells.
48. `screen_write` (src/tsm/tsm-screen.c:418-421) keeps the character of a cell that is covered by a wide one, and
    `gtktsm_face_render` (456-501) looks into its cache before it looks at the width; the old character is blended over
    the right half of the wide one if its glyph is cached (`C93_false_covered`).
49. A cell of width 0 is never painted, even when its left neighbour is no longer wide (`C93_false_orphan`), and a wide
    character whose right half was overwritten is painted over it again when the cursor moves there
    (`C93_false_overlap`).
50. Cells in bold or italic are painted with the cell size of their own face; if it is wider than the regular one they
    paint over their neighbours (`C93_false_bold`). `face_bold_italic` is never used.
51. `gtktsm_terminal_fork` (1976-2009) before the first configure event sets the font for a window of size 0 and opens a
    pty of 1 by 1, while the screen has 80 by 24 cells (C94: `C94_false_early`). If the window is configured before there
    is any face, the screen is resized to 1 by 1 and the next fork gives the pty another size.
52. `terminal_set_font` (1183-1247) recomputes columns and rows without resizing the screen and the pty; the next child
    gets a pty for the new font on a screen for the old one (C94: `C94_false_font`).
53. `terminal_button_fn` and `terminal_motion_fn` (1421-1507) convert `e->x / cell_width` to `unsigned int`. The pointer is
    grabbed during a drag, so positions left of or above the window are delivered; at one cell or more outside this is
    undefined (C95, C100: `C95_false_outside`, `C100_false_mouse`).
54. The motion that passes the threshold of three pixels only starts the selection at the place of the press; the target
    is set by the next motion, so a drag in one step selects one cell (C95: `C95_false_single`).
55. `sel_start + 100` (1459) wraps: within 100 ms before the clock of the display wraps a click does not remove the
    selection (C95: `C95_false_clock`). A button held longer than 100 ms does not remove it either; this is taken as intended.
56. `terminal_set_property` for `sb-size` (1696-1699) changes the scrollback, and thereby what is shown, without a redraw
    (C99: `C99_false`). A NULL string for one of the string properties is passed to `strcmp`.
57. `terminal_child_fn` (1956-1974) closes the pty as soon as the child has ended, without reading what it has written
    last; C96 therefore ends with the child.
58. gtktsm never passes mouse events to the emulator, although the emulator reports their modes to programs.
59. `screen_scroll_up` pushes the rows that leave any scroll region of the main screen to the scrollback, also if the region
    does not begin at the first row (xterm keeps only those of regions that begin there). C101 states what the code does.
60. A wide character that does not fit into the rest of the row is cut off, not wrapped (see 39 and C85); the roll of C101
    has it on the next row (C101: `C101_wide_false`).
61. The width tables are those of Unicode 9.0 (2016). Emoji and marks added since, for example U+1F970, have the wrong width
    (`C103_new_false`); programs that use newer tables place the text after them elsewhere.
62. `terminal_child_fn` (gtktsm-terminal.c:1956-1974) closes the pty as soon as the end of the child is noticed; output that the
    child has written but that has not been read is lost (`C104_lost_false`). A short-lived program may show nothing at all.
63. The comment at `SHL_ALIGN_POWER2` promises 0 for 0; for 0 the shift is by 64 bits and for 1 `__builtin_clzll(0)` is called, both
    undefined (`C106_align_false`). The only caller passes at least 4096.
64. `terminal_finalize` removes the watch of a child that still runs, so that nothing waits for the child when it ends; it stays a zombie
    until the application ends (`C107_waited_false`).
65. The line drawing set has a blank at code 95; the table of libtsm has 0 there (tsm_vte_dec_special_graphics, entry 63), which is
    not shown, so that the cursor stays (`C85_blank_false`).
66. `vte_map` maps the characters 161 to 254 through G1 also in UTF-8 mode: after `ESC ) 0`, which many programs send
    when they start, é is shown as ␋ (`C85_latin_false`). In UTF-8 mode only the codes up to 126 should be subject to the
    character sets.
67. After a character was written into the last column, the position report (`ESC[6n`) names a column beyond the screen; in origin mode
    it is not relative to the scroll region (`C85_position_false`, cf. C46).
68. When the property `show-dirty` is switched off, the frames stay until the cells change: the next drawing skips cells that are not newer
    than the last one (`C109_off_false`, `C93_false_frames`).
69. `vte_write_debug` (src/tsm/tsm-vte.c:682-696) says that escape sequences are always 7-bit, and in debug builds reports other bytes.
    X10 mouse reports (3150-3174) beyond column or row 95 contain such bytes, also in 7-bit mode: the report is neither ASCII nor UTF-8
    (C110: `C110_false`).
70. `terminal_set_property` (gtktsm-terminal.c:1680-1743): `NULL` is a value of the string properties. For `anti-aliasing` and
    `subpixel-order` it is passed to `strcmp`; for `font` it is accepted before there is a face, and later ends the program with `g_error`
    (289-290, 1189-1199). Unknown strings are silently taken as `default` (C111: `C111_false_null`, `C111_false_font`, `C111_false_unknown`).
71. `renderer_realloc` (gtktsm-terminal.c:558) allocates the shadow buffer with `malloc`, and `terminal_set_font` does not reset the age of the
    renderer: after a change of the font the window shows parts of the buffer that were never written, that is old contents of the heap (C112:
    `C112_false_font`). The same happens without a change of the font: the right half of a wide character whose left half was overwritten
    has no width and is never drawn; after a resize its pixels are uninitialised (`C112_false_half`).
72. `tsm_screen_sb_get_line_count`, `tsm_screen_sb_get_line_pos` (tsm-screen.c:937-953) and `tsm_vte_handle_mouse` (tsm-vte.c:3122)
    are declared in libtsm.h and listed in libtsm.sym but not marked `SHL_EXPORT`; with `C_VISIBILITY_PRESET hidden` (src/tsm/CMakeLists.txt:19, 50)
    the shared library does not export them. The tests link the objects and do not notice. `tsm_vte_handle_mouse` and
    `tsm_vte_set_backspace_sends_delete` (tsm-vte.c:2539) dereference `vte` without the check for NULL all other functions make.
    Outside the model: no theorem.
73. `shl_pty_dispatch` takes no reference while it runs callbacks: if the callback drops the last one, `pty_read` goes on with freed memory
    (`pty->fd`, shl-pty.c:370, then `pty->out_buf`, 334), whatever the kernel answers (C113: `C113_dropped`, `C113_false`). A callback that
    dispatches the pty again gets its argument overwritten, as there is one `in_buf` per pty (`C113_buffer_false`).
74. `pty_setup_child` sets the erase character of the child's terminal to Backspace (shl-pty.c:111-112), whatever the emulator sends: with
    `tsm_vte_set_backspace_sends_delete(vte, true)` the Backspace key no longer erases in a child of shl-pty.c (C114: `C114_false_delete`).
75. `tsm_vte_input` and `tsm_screen_draw` hold no reference while callbacks run either: a write, OSC or bell callback that drops the last
    reference of the emulator, or a drawing callback that drops that of the screen, leads to a use after free (read from the code, not
    modelled; compare finding 73).
76. gtktsm asks GApplication to send the environment of each command (`G_APPLICATION_SEND_ENVIRONMENT`, gtktsm-app.c:197) but never uses it:
    `gtktsm_win_run` takes `SHELL`, the environment and the directory from the running application (gtktsm-win.c:121-149), so a second
    `gtktsm` gets those of the first one (C115: `C115_false`).
77. A pty that cannot be opened for one new window (no descriptors, no processes) ends the whole application with all its windows: `g_error` in
    `gtktsm_terminal_fork` (gtktsm-terminal.c:1997-1998) (C115: `C115_false_fork`). The check in `gtktsm_win_run` (gtktsm-win.c:134-138)
    would do the same. An unusable `SHELL`, such as an empty one, is not replaced by `/bin/sh`: the child ends in `g_error`.

## 5. Testing the theorems against wrong programs

`tools/mutate.py` applies one wrong edit at a time to a scratch copy of the
model, rebuilds the theorems of the properties concerned and records what
fails. The edits are in `seeded/mutants-*.jsonl`, the results in
`seeded/LOG.jsonl`. An edit that changes the truth of a property's text but
lets its theorems build leads to a stronger theorem; these are marked in the
field `tightened`.

## 6. Axioms

Output of `#print axioms` for every property theorem, written by `tools/design_axioms.py`.

### none (2 theorems)

C55_character, C111_names

### `propext` (16 theorems)

C04_overlong_ascii_accepted, C04_two_byte_overlong, C11_zero_width, C14_zero, C20_zero,
C62_closed, C62_false_return, C63_false_zresize, C90_removed_false, C91_false, C91_false_abs,
C113_false, C113_buffer_partial, C113_buffer_false, C114_false_delete, C114_false_newline

### `Quot.sound, propext` (105 theorems)

C07_false_nomem, C08_false, C08_false_tab, C15_clear, C18_chars_false, C21_tab_left_false,
C23_false, C24_false, C28_false_def_attr, C28_false_resize, C32_false_newline,
C33_false_scrolled, C33_false_scrolled_down, C33_false_buffer, C34_false_newest,
C34_false_first_row, C37_page_false, C38_false, C38_false_scrolled, C38_false_max, C40_false,
C40_false_tab, C40_false_insert, C42_false, C43_false, C43_false_utf8, C44_bounded, C44_cut,
C44_not_a_prefix, C45_false, C45_false_omitted, C46_return_false, C46_return_false_origin,
C47_false, C47_false_wrap, C47_false_sets, C48_false, C49_false, C51_single, C51_halves,
C51_default, C53_eight_bit_partial, C53_false, C54_false, C54_false_wrap, C55_false_7bit,
C55_false_nul, C56_false, C57_false, C57_false_large, C58_position, C58_false, C58_false_button,
C59_motion_filter, C59_off, C59_false, C64_false, C65_false, C65_false_wrap, C66_false,
C66_false_escape, C72_harmless, C78_false, C83_stop_false_encoding, C83_stop_false_x10,
C83_stop_false_reset, C93_false_font, C93_false_frames, C93_false_covered, C93_false_orphan,
C93_false_overlap, C93_false_bold, C94_false_early, C94_false_font, C95_click_partial,
C95_release, C95_false_single, C95_false_outside, C95_false_clock, C99_false, C100_false_mouse,
C100_false_window, C104_exit, C104_lost_false, C105_reuse, C106_mult, C106_align_partial,
C106_align_false, C109_off_false, C110_false, C111_initial, C111_frames, C111_false,
C111_false_null, C111_false_font, C112_false_font, C112_false_half, C112_false, C113_dropped,
C113_returned, C114_discipline, C114_default, C115_version, C115_own, C115_stopped

### `Classical.choice, Quot.sound, propext` (321 theorems)

C01_utf8_stream_roundtrip, C01_utf8_delivered_at_last_byte, C02_encode_spec, C02_encode_length,
C02_encode_prefix_free, C02_encode_alloc, C03_utf8_resync, C03_utf8_resync_boundary,
C03_utf8_value_bound, C04_ascii_only_from_itself_partial, C05_symbol, C05_intable_correct,
C05_width_spec, C05_width_range, C06_false_always, C06_before_partial, C06_false,
C07_length_partial, C07_same_partial, C07_differ_partial, C08_step_safe_partial,
C08_history_partial, C08_tame_partial, C09_cursor_margins, C10_failed_resize, C11_write,
C12_text, C13_scroll_up, C13_rows_in_scrollback, C14_scroll_down, C15_bounded, C15_step,
C15_history, C15_set_max, C16_alternate_isolated, C17_resize, C17_same, C17_cells,
C18_erase_chars_partial, C18_erase, C19_insert_lines, C19_delete_lines, C20_insert_chars,
C20_delete_chars, C21_tab_right, C21_tab_left_partial, C22_move_up, C22_move_up_scroll,
C22_move_down, C22_move_down_scroll, C22_move_left_right, C22_line_home_end, C22_newline,
C23_move_to_partial, C23_move_to_absolute, C24_insert_mode_partial, C25_coverage, C26_content,
C27_cursor, C27_one_cursor, C28_tracks_partial, C28_def_attr_partial, C28_live_partial,
C29_read_only, C30_start, C30_target, C31_highlight, C32_copy_partial,
C32_copy_from_text_partial, C33_safe_partial, C34_direction_partial, C35_selection_follows,
C36_no_dangling, C37_sb_up, C37_sb_down, C37_sb_reset, C37_page_partial, C38_moves_partial,
C38_step_partial, C38_max_partial, C38_heals, C39_chunking, C40_input_safe_partial,
C40_ascii_partial, C41_parameters, C41_bounded, C42_cursor_position_partial, C43_can_partial,
C43_sub_partial, C43_esc_partial, C43_state_partial, C44_delivered_partial, C44_exact_partial,
C44_false, C45_sgr_partial, C45_codes, C45_reset, C46_status, C46_report, C46_return_partial,
C47_save, C47_restore_partial, C47_restored, C48_hard_reset, C48_ris_partial, C49_reset,
C49_decstr_partial, C50_no_recursion, C50_echo, C50_no_echo, C51_charsets, C51_index, C52_same,
C52_text, C53_seven_bit, C53_text, C54_enter, C54_leave, C54_round_trip_partial, C55_one,
C55_sent_partial, C55_echo_partial, C55_control, C56_prefix_partial, C56_no_trace,
C57_button_partial, C57_motion_partial, C57_pixel_partial, C57_pixel_motion_partial,
C57_pixel_outside_partial, C57_outside_partial, C58_report_partial, C59_disable, C59_dedup_step,
C59_dedup_partial, C60_palette, C60_select, C60_colours, C60_custom, C61_queue, C61_failed_push,
C62_prefix, C62_write, C62_drained, C63_list_partial, C63_zeroed_partial, C64_bag_partial,
C64_ulong_partial, C65_column_effect, C65_column_partial, C65_row_effect, C65_row_partial,
C66_csi_partial, C66_esc_partial, C66_modes_partial, C66_request_partial, C67_set_flags,
C67_reset_flags, C67_tabstop, C67_set_margins, C67_reset, C68_input, C69_ids, C70_origin,
C70_drawn, C71_settings, C71_history, C72_answers, C73_modes, C74_source, C75_kept, C76_c0,
C76_c1, C76_forms, C76_can, C77_editing, C77_margins, C78_vpr_effect, C78_vpr_partial,
C79_modes, C79_meaning, C79_cursor, C79_keypad, C80_identity, C81_no_dangling, C81_step,
C81_owned, C81_no_leak, C81_released, C81_failed_new, C81_draw, C81_copy, C81_same, C82_safe,
C82_vte, C82_screen, C82_no_leak, C82_released, C83_told, C83_coordinates, C83_modes,
C83_stop_partial, C84_level, C84_decoding, C85_canvas_partial, C85_after_reset,
C85_session_partial, C85_plain, C85_region_false, C85_wide_false, C85_tab_false,
C85_origin_false, C85_restore_false, C85_leave_false, C85_blank_false, C85_latin_false,
C85_position_false, C86_between, C86_can, C86_reset, C86_session, C87_input, C87_screen,
C88_safe, C88_descriptors, C88_nothing_left, C88_others, C88_open_failed, C89_child_partial,
C89_closed_false, C89_false, C89_no_master, C90_safe, C90_event_partial, C90_lost_false,
C90_false, C90_delivered_partial, C90_polling, C90_removed_partial, C91_safe_partial,
C92_nearest, C92_between, C92_blend, C93_incremental_partial, C93_cells_partial,
C93_picture_partial, C94_partial, C95_marked_partial, C95_double_partial, C95_drag_partial,
C96_flow, C96_scheduled, C96_output, C97_scroll, C97_typed_partial, C98_only, C98_title,
C99_partial, C100_created, C100_partial, C101_scrollback_partial, C101_roll_partial, C101_roll,
C101_look_back, C101_wide_false, C102_cells, C102_start, C102_next, C102_draw, C102_program,
C103_columns_partial, C103_new_false, C103_exactly_partial, C103_cursor_partial,
C104_programs_partial, C104_lost_partial, C105_strings, C107_safe, C107_sources, C107_answers,
C107_released, C107_finalize, C107_waited_partial, C107_waited_false, C108_typed, C108_paged,
C108_printed, C108_session, C108_program, C109_inner_partial, C109_frame_partial,
C109_changed_partial, C110_input, C110_key, C110_mouse, C110_call_partial, C110_history_partial,
C111_set_partial, C111_unknown, C111_others, C111_kept, C111_scrollback, C111_faces,
C111_works_partial, C111_false_unknown, C112_area, C112_margin, C112_blank, C112_copied,
C112_defined_partial, C112_program, C113_order, C113_closed, C113_safe_partial,
C114_program_partial, C115_opened, C115_refused, C115_works_partial, C115_windows_partial,
C115_false_fork, C115_false

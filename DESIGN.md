# Design

Subject: `tivars_lib_py` at `/repo` (Python), read as text and never run. The
token sheets (`/repo/tivars/tokens`, a git submodule) are absent from the checkout, so token
tables, OS versions and the order of models are parameters of the model, constrained only where a
theorem says so.

## Layout

| directory | content |
|---|---|
| `Verif/Py` | Python runtime pieces: byte strings, slices, `int.to_bytes`, streams, string methods, exceptions and warnings |
| `Verif/Model` | shallow function-by-function models; each definition cites file and lines |
| `Verif/Spec` | small specifications used in the statements, independent of the model's algorithms |
| `Verif/Proofs` | helper lemmas |
| `Verif/Props` | the theorems named in `MANIFEST.json`, each beside an `example` that a concrete case meets its hypotheses |

`properties.jsonl` has the properties in English, `MANIFEST.json` the claims, `seeded/LOG.jsonl` the
wrong programs the theorems were tried against. Each line of that log is one edit of a model
definition in a scratch copy, with the theorems that no longer build.

## How Python is modelled

* A method is a function in the monad `PyM σ α`: from a state (the bytes of the object) to an outcome made of
  a value or an exception, the state afterwards and the list of warnings. The state is kept when an exception is
  raised, so that partial updates are visible (C19, C26, C76).
* Exceptions and warnings are values: one constructor of `PyErr` per exception class raised, one constructor of
  `Warn` per place that warns.
* `bytes` and `bytearray` are lists of `UInt8`; whether a section is mutable is recorded (`Buf`), because assigning
  a whole section replaces a `bytearray` by `bytes` and views then fail (C08).
* `BytesIO` is data and position (`Stream`). Reading at the end gives fewer bytes; seeking below zero is an error.
* The converters (`Integer`, `Boolean`, `Bits`, `BCD`, ...) are pairs of functions `Conv`; sections and
  views are one generic setter each, so the theorems about them hold of every class.
* Classes are an enumeration `Cls` of the 48 entry classes with a table of their type ID, name converter, layout of
  length and data, flash extension and leading name. Dynamic dispatch is a match on it; `self.__class__ = ...` in
  `coerce` is an update of a field of the state.
* Dictionaries that matter by order are association lists.
* Loops are structural recursion; those whose termination is a property (C31, C41) take fuel, and the
  theorem gives the amount that suffices.
* `Fraction` is the rational numbers of Mathlib, kept in lowest terms as in Python; `Decimal` is sign, coefficient and
  exponent, with precision 14 and rounding half even as `numeric.py` sets them. A finite float is its exact value.

## Trusted base

1. Lean's kernel (4.33.0) and the statements in `Verif/Props` together with `Verif/Spec`.
2. The axioms `propext`, `Classical.choice` and `Quot.sound`; the table at the end lists them per theorem. No axiom is
   added, nothing is compiled (`native_decide`, `bv_decide`) and no proof is left open.
3. That the definitions in `Verif/Model` do what the cited lines do. The code was read, not run.
4. That Python behaves as `Verif/Py` and the definitions for `Decimal`, `Fraction`, `float`, `json`, `str` and `dict` say. These
   were written from the language documentation.
5. What is left a parameter, about which nothing or only the stated hypothesis is assumed: the token tables, OS versions
   with their order, `MODEL_ORDER`, `int(TIReal)` and `float(TIReal)` for the settings (C119 models them, `C58_number` and C120 put them in), the names of tokens in languages and the formatting of whole numbers (C108).

### What is modelled

| file | modelled | not modelled |
|---|---|---|
| `data.py` | `Converter`s `Bytes`, `Data`, `SizedData`, `Boolean`, `Integer`, `String`, `Bits`; `Section` and `View` get and set; `Dock.load` with the tables of loaders of all classes of entries | `datamethod`, class-level access returning the descriptor; loader methods are told apart by kinds of objects, not values |
| `flags.py` | `Flags`, `AsmFlags` and the other flag sets as bit sets, update, containment, bytes, text, number and comparisons | negative bits |
| `numeric.py` | `BCD`, `LeftNibbleBCD`, `RightNibbleBCD`, `EntryConverter` pieces, `pi`, the decimal context, `replacer` and `squash` | `pretty` output in other notations than those used by properties |
| `token.py`, `trie.py` | `Token` (names, bytes, escapes), `OsRange`, tries, `match`, containers of tokens with several languages (`TITokens`) | reading the XML of the token sheets |
| `tokenizer/*` | `encode`, `decode`, all encoder states and modes, munching, byte literals, minimum OS, names of entries | unicode normalisation |
| `models/*` | the models with magic, features, order and comparisons | OS version objects (parameter with any linear order) |
| `var.py` | `TIHeader`, `TIEntry`, `SizedEntry`, `TIVar`: sections, construction, load, save, checksum, offsets, archive, extension, targets, copy and equality, minimum OS and support, saving to and opening files, hexadecimal text, text into entries of unknown class, the registry of classes, joining headers with entries and the sharing of header objects | errors of the operating system |
| `flash.py`, `types/flash.py` | blocks, records, data made of blocks, headers, look-ahead, offsets, load, save, checksum, extensions, file names, attributes and assignments | signatures of content |
| `types/real.py` | `TIReal` (load from string, decimal, float; decimal, sign, text), fractions, radicals (packed fields, loading from text, text, decimal value, sign), multiples of pi, negation, conversion to `float` and `int`, numbers for JSON, text of all of these, text for typing, text with `N` decimals | `TIUndefinedReal`, other settings of the decimal context than the default |
| `types/complex.py` | layout, subtypes, versions, coercion, setting parts, `load_string`, `load_complex` of finite floats, `complex`, `__format__` without specification, with `t` and with `.Nf` and `.Nt` | other format specifications |
| `types/list.py`, `types/matrix.py` | lengths, dimensions, elements, versions, names of lists (C132), text, text for typing, with `N` decimals and `load_string` of lists and matrices | longer format specifications; lists of the base class `TIList` |
| `types/tokenized.py` | equations, strings, programs: tokens, text, versions, lines, protection, assembly detection, format specifications | `ProgramName` locales |
| `types/picture.py` | pixel converters, arrays, lengths, image names | |
| `types/settings.py` | all three settings, their numbers, dictionaries, JSON text | values of unexpected kinds in JSON |
| `types/gdb.py` | layout, equations, styles, colours, numbers, versions, coercion, dictionaries, construction of graph databases, `mono`, construction and copies of graphed equations, taking equations out, JSON text, default dictionaries and `gdb.schema.json` (the texts of the five files are copied into the model) | values of unexpected kinds in dictionaries |
| `types/group.py` | group, ungroup, clear, version | |
| `types/appvar.py` | as sized entries | |
| `PIL/*` | opening, decoding, encoding and saving, from the list of components that Pillow holds to the bytes of the file | Pillow and numpy themselves; registration |

## The properties

Statements are in `properties.jsonl`. A name ending in `_false` proves the negation of the full statement by a concrete case; `_partial` proves the part named in the note; other names are proved in full.

### C01 Integer sections round-trip or overflow

*proved*, `Props/Data.lean`. `Integer` over `setRaw`/`fitWidth`; `intToBytesLE` is `int.to_bytes`. Induction on the width relates it to `fromLE`.

Theorems: `C01_integer_section`, `C01_integer_readback`.

Full statement, every width and integer.

### C02 Boolean sections round-trip and normalise

*proved*, `Props/Data.lean`. `Boolean` over the same section layer; case analysis on the byte string.

Theorems: `C02_boolean_section`.

Full statement.

### C03 Bit-field writes are exact and leave the other bits alone

*proved*, `Props/Data.lean`. `Bits` with an arbitrary slice. The written byte is characterised bit by bit (`testBit`), for every slice and value.

Theorems: `C03_bitfield_write`, `C03_bitfield_readback`.

Full statement for every slice that selects at least one bit.

### C04 A bit-field never silently drops part of an oversized value

*partial*, `Props/Data.lean`. Witness 256; the partial theorem follows from C03.

Theorems: `C04_bitfield_silent_loss_false`, `C04_bitfield_silent_loss_partial`.

False of the code: 256 is stored as 0 without warning (value % 256). The partial theorem proves it for values of one byte.

### C05 Latin-1 string sections round-trip up to NUL padding and width

*proved*, `Props/Data.lean`. `String` with latin-1 encoding, `ljust` and truncation in `fitWidth`; lists lemmas on padding and stripping.

Theorems: `C05_string_section`.

Full statement.

### C06 Fixed-width sections keep their width under every assignment history

*proved*, `Props/Entry.lean`, `Props/Header.lean`. Invariant over an arbitrary list of section assignments (each may raise) of a header and of an entry, by induction on the list; the failing ones leave the state.

Theorems: `C06_section_width`, `C06_header_history`, `C06_entry_history`.

Full statement, for headers and for entries.

### C07 View writes are local

*proved*, `Props/Data.lean`. `View` with `viewGet`/`viewPut` on a buffer; `take`/`drop` algebra of slice assignment. Commutation is derived from the characterisation of the result.

Theorems: `C07_view_length`, `C07_view_write`, `C07_view_frame`, `C07_view_commute`.

Full statement for contiguous fixed-width views.

### C08 Views remain writable after a section was assigned as a whole

*partial*, `Props/Data.lean`. Mutability of the buffer is part of the state (`Buf.mutable`), since whole assignment replaces the `bytearray` by `bytes`.

Theorems: `C08_view_after_section_set_false`, `C08_view_after_section_set_partial`.

False of the code: a whole-section assignment leaves an immutable bytes object, and the next view write raises TypeError. Partial: reads through views still work and a buffer that was never reassigned stays writable.

### C09 Flag updates set what was asked and nothing else

*proved*, `Props/Flags.lean`. `Flags` as an association from bit to truth value, the dictionary of the code; update is compared to a function-level specification.

Theorems: `C09_flags_update`.

Full statement for flag sets with bits 0..w-1.

### C10 Flag bytes round-trip

*proved*, `Props/Flags.lean`. As C09, with `testBit` of the little-endian integer.

Theorems: `C10_flags_roundtrip`.

Full statement for nonempty byte strings.

### C11 BCD fields round-trip and reject what does not fit

*proved*, `Props/Numeric.lean`. `BCD.get/set`: reading hexadecimal digits and `int(value, 10)`; induction on the width.

Theorems: `C11_bcd_field`, `C11_bcd_readback`.

Full statement, every width.

### C12 Nibble-aligned BCD fields round-trip three digits and keep the foreign nibble

*partial*, `Props/Numeric.lean`. `LeftNibbleBCD`, `RightNibbleBCD`, all values; the overflow is a witness.

Theorems: `C12_nibble_overflow_false`, `C12_left_nibble_partial`, `C12_right_nibble`, `C12_left_nibble_reject_partial`.

The right-aligned half is proved in full. The left-aligned half is false of the code for 1000..9999: the value leaks into the neighbouring nibble.

### C13 The six packed fields of an exact radical are independent

*proved*, `Props/Radical.lean`. All six views over the nine bytes of a radical; each write is characterised, the history is an induction over any list of writes.

Theorems: `C13_radical_write`, `C13_radical_history`.

Full statement, any sequence of in-range writes.

### C14 BCD dates and revisions round-trip

*partial*, `Props/Numeric.lean`. `BCDDate`, `BCDRevision` over the BCD layer; the carry is a witness.

Theorems: `C14_date_false`, `C14_date_partial`, `C14_revision_partial`, `C14_revision_false`.

Round trips are proved in range. The rejection half is false of the code: an oversized component carries into its neighbour.

### C15 Loading a decimal string stores its value truncated to 14 significant digits

*proved*, `Props/Real.lean`. `TIReal.load_string` character by character (`Model/Real`, `Py/Str`). The specification is a grammar of literals with a rational value (`Spec/Real`, `Spec/RealValue`); the theorem relates the stored mantissa and exponent to the value truncated to 14 digits.

Theorems: `C15_load_decimal`.

Full statement over rational values; numbers out of exponent range raise OverflowError.

### C16 Leading zeros do not change the value of a decimal literal

*partial*, `Props/Real.lean`, `Props/RealZeros.lean`. Same model; witness "01". `C16_divided` says for all literals with a nonzero integer part what is stored: `realLoop_zeros` follows the loop, which leaves the zeros where they are, and `mantissa_zeros` counts the digits they push out.

Theorems: `C16_leading_zeros_false`, `C16_leading_zeros_partial`, `C16_divided`.

False of the code: "01" stores 0.1. Partial: literals whose integer part is zero. For all others it is proved that k leading zeros divide the number by 10^k.

### C17 Reading a number as a decimal and loading it back is the identity

*proved*, `Props/Real.lean`. C15 applied to the notation of a decimal; `str(Decimal)` is modelled after the specification of Python's decimal module (`Model/Real`).

Theorems: `C17_reload`, `C17_reload_decimal`, `C17_reload_zero`, `C17_decimal_exact`.

Full statement; any decimal notation without redundant leading zeros, including str(Decimal).

### C18 Loading a float stores the decimal the float prints as

*partial*, `Props/Real.lean`, `Props/RealZeros.lean`. A float is its exact value `m * 2^q`; `Decimal(float)` is exact; witness 1.23. `C18_truncated` says for every float what is stored.

Theorems: `C18_load_float_false`, `C18_load_float_partial`, `C18_truncated`.

False of the code: 1.23 is stored as 1.2299999999999. Partial: floats whose exact expansion has at most 14 significant digits. For all floats it is proved that the exact expansion is truncated to 14 digits, or OverflowError raised.

### C19 A failed numeric load leaves the number unchanged

*partial*, `Props/Real.lean`. The order of the writes in `load_string` is kept in the model, as is the state at the exception.

Theorems: `C19_failed_load_false`, `C19_failed_load_partial`.

False of the code: an exponent out of range raises after the mantissa was overwritten. Partial: every other failure leaves the number unchanged.

### C20 Negation flips the sign and nothing else

*proved*, `Props/Real.lean`. The sign bit as a view; xor on a byte.

Theorems: `C20_negation`.

Full statement.

### C21 Fractions round-trip through their 14-digit decimal form

*proved*, `Props/Fraction.lean`. `Decimal` division at 14 digits is proved correctly rounded (`Proofs/Decimal`), `Fraction.limit_denominator` is proved to be a best approximation by the invariant of its continued-fraction loop (`Proofs/Limit`); two distinct fractions with denominators up to 10000 are at least 1e-8 apart, while the rounding error is below 5e-9.

Theorems: `C21_fraction`, `C21_sharp`.

Full statement with the wider bound 10^6; C21_sharp shows that the wider bound cannot be raised to 10^6+1. Python Decimal arithmetic with 14 digits and Fraction.limit_denominator are modelled from their documentation.

### C22 Entry length arithmetic equals the serialised length

*proved*, `Props/Entry.lean`. `TIEntry.bytes`, `meta_length`, `calc_data_length`; counting.

Theorems: `C22_entry_length`.

Full statement.

### C23 Entries survive a save/load round trip

*partial*, `Props/Entry.lean`. `TIEntry.load_bytes` on a stream, with the type dispatch and `coerce`; the stream position is followed through every read. The excluded entries are described by a predicate on their bytes.

Theorems: `C23_entry_roundtrip_partial`, `C23_entry_typed_partial`, `C23_misfire_false`, `C23_graphed_false`.

False of the code: an entry whose flash bytes equal its data length is read without them, and type 0x23 is rewritten. Partial: every other well-formed entry whose content determines its class.

### C24 Loading an entry never crashes and consumes exactly its extent

*proved*, `Props/Entry.lean`. Case analysis over every branch of `load_bytes` on arbitrary bytes.

Theorems: `C24_load_total`, `C24_load_base`.

Full statement.

### C25 Archiving and unarchiving are inverse and touch only the archived flag

*partial*, `Props/Entry.lean`. `archive`/`unarchive`, then C23.

Theorems: `C25_archive`, `C25_saveload_partial`, `C25_saveload_false`.

Archiving proved in full; the save/load clause is false when the data has 0x8000 + version bytes, proved otherwise.

### C26 Sized entries keep length field and data in step

*partial*, `Props/Construct.lean`, `Props/Entry.lean`. Invariant over an arbitrary history of assignments, clears and reloads of every sized class.

Theorems: `C26_sized_in_step_partial`, `C26_image_false`, `C26_reload_false`, `C26_raise_false`, `C76_graphed_false`.

False of assignments to images and to equations of graph databases, of reloads that misread the flash bytes and of assignments whose version computation raises. Partial: every other history of every sized class.

### C27 Var files survive a save/load round trip

*partial*, `Props/Join.lean`, `Props/Var.lean`. C23 for each entry, induction over the list of entries with the stream position and the remaining length.

Theorems: `C27_var_roundtrip_partial`, `C27_exact`, `C27_var_roundtrip_false`, `C27_mono_false`.

Proved for every header and every list of storable entries (well formed, flash bytes not repeating the data length, content that determines the class). The classes come back too, except those of monochrome graph databases longer than 61 bytes. False for the others (C27_var_roundtrip_false, C27_mono_false).

### C28 Var file framing

*proved*, `Props/Var.lean`. Serialisation of `TIVar`; counting, with the error case `OverflowError`.

Theorems: `C28_framing`.

Header and entries of their section widths, which C06 proves of every header and entry.

### C29 len(var) is the size of the saved file

*partial*, `Props/Var.lean`. As C28; the difference is proved to be two for every var.

Theorems: `C29_len_false`, `C29_len_partial`.

False: the length reported is always two short (the checksum or length field is left out). Partial: it is the length of the file less two, and grows by the length of each entry added.

### C30 The checksum is the 16-bit sum and detects every single-byte corruption

*partial*, `Props/Var.lean`. The sum modulo 65536; a changed byte changes the sum by less than 256. The warning uses C27.

Theorems: `C30_checksum`, `C30_mismatch_partial`, `C30_corruption_false`.

Sum and sensitivity proved for every var. The warning: proved for storable entries and any wrong stored checksum; false in general, since the checksum compared is recomputed from the entries as loaded.

### C31 Loading any file as a var terminates

*proved*, `Props/Var.lean`. The entry loop takes fuel; the theorem gives a bound on the fuel for every byte string, including look-ahead at the end of the stream, which moves backwards.

Theorems: `C31_load_terminates`.

### C32 Loading one entry by offset agrees with loading the whole var

*proved*, `Props/Var.lean`. `TIEntry.load_from_file` with `next_entry_length` against the loop of `TIVar.load_bytes`, by induction on the index.

Theorems: `C32_offset`.

For every saved var that loads; a var that does not load has no entries to compare.

### C33 Adding an entry to a var stores that entry

*partial*, `Props/Var.lean`. `add_entry` with Python's truth value of an object with `__len__`.

Theorems: `C33_add_entry_partial`, `C33_add_entry_false`.

False for every entry without data; proved for every entry with data.

### C34 Headers survive a save/load round trip

*partial*, `Props/Header.lean`. `TIHeader.load_bytes` on bytes and on streams.

Theorems: `C34_header_roundtrip_partial`, `C34_header_stream_false`.

False of the code: loading from a stream raises AttributeError. Partial: loading from bytes.

### C35 A header made for a model targets that model

*partial*, `Props/Header.lean`, `Props/Var.lean`. The table of models of `models/model.py` and the magic strings; the whole finite table is decided and lifted, the loading half uses C27 and the order of models.

Theorems: `C35_header_targets`, `C35_targets_spec`, `C35_load_partial`, `C35_load_crash_false`, `C35_load_warning_false`.

First half proved. Loading is false of the code: for the four models alone in their target set min(*targets) raises TypeError; any model with an older co-target gets a spurious warning. Partial: the strictly oldest of at least two targets.

### C36 A file extension can be computed for every model

*partial*, `Props/Header.lean`. `TIVar.extension` over any extension dictionary; the order of models is a parameter.

Theorems: `C36_extension_partial`, `C36_extension_false`, `C36_extension_witness_false`.

False of the code: KeyError for every model newer than a listed one but not itself listed. Partial: listed models, models older than all listed ones, no model.

### C37 Token lookup returns exactly the matching names, longest first

*proved*, `Props/Token.lean`. `TITokenTrie` as an inductive tree; `insert` and `match` by induction, against prefix matching on the list of names (`Spec/Token`).

Theorems: `C37_trie_match`.

Full statement, every table (duplicates included).

### C38 Decoding loses no bytes

*proved*, `Props/Token.lean`. `decode` with its three lookups; induction over the bytes, with the shape of the lost tail.

Theorems: `C38_decode_bytes`.

Full statement.

### C39 Decoding inverts token concatenation

*proved*, `Props/Token.lean`. As C38 for prefix-free codes.

Theorems: `C39_decode_concat`.

Full statement.

### C40 Encoding consumes the whole string as table names and byte literals

*proved*, `Props/Token.lean`. `encode` with its stack of states as a run relation; induction over the run.

Theorems: `C40_encode_pieces`, `C40_encode_error`.

Full statement.

### C41 Encoding terminates

*proved*, `Props/Token.lean`. The loop takes fuel; a bound is proved and the need of the condition shown by a looping table.

Theorems: `C41_encode_terminates`, `C41_empty_name_loops`.

Full statement; the second theorem shows the condition on empty names is needed.

### C42 The tokenizer's context stack never runs out

*proved*, `Props/Token.lean`. Invariant of the stack of `tokenizer/state.py` over any sequence of tokens.

Theorems: `C42_stack_never_empty`, `C42_stack_shape`.

Full statement.

### C43 Maximal munch really is maximal

*proved*, `Props/Token.lean`. C37 and C40 specialised to the modes; uniqueness by induction.

Theorems: `C43_max_munch`, `C43_min_munch`, `C43_munch_unique`.

Full statement, and the reading is unique.

### C44 Smart mode tokenises strings minimally and everything else maximally

*proved*, `Props/Token.lean`. A separate specification of contexts (`Spec/Token`) is related to the stack of states.

Theorems: `C44_smart_mode`, `C44_smart_unique`.

Full statement, and the reading is unique.

### C45 Escapes of unrecognised bytes re-encode to the same bytes

*proved*, `Props/Token.lean`. Escapes of `Token.__str__`; the trie is extended by the byte-literal rule of the encoder.

Theorems: `C45_escape_anywhere`, `C45_escape_text`.

Full statement.

### C46 The reported minimum OS is the latest one needed

*proved*, `Props/Token.lean`. Maximum over the list of tokens; OS versions are an arbitrary linear order.

Theorems: `C46_decode_since`, `C46_encode_since`.

Full statement.

### C47 Program versions grow with the tokens used and are recognised on load

*partial*, `Props/Tokenized.lean`. `get_version` of tokenised entries over any minimum OS.

Theorems: `C47_version_monotone`, `C47_recognised_partial`, `C47_recognised_false`.

Monotonicity proved. Recognition: false for minimum OS from 2.55 up to the colour models (07 and 27 are not in the list), proved outside that range.

### C48 Splitting a program into lines keeps every token

*partial*, `Props/Tokenized.lean`. `lines` of tokenised data, characterised for every list of tokens.

Theorems: `C48_lines_partial`, `C48_lines_false`.

False as soon as a store or quotation mark occurs (they are dropped); proved otherwise, and the lines are characterised for every token list.

### C49 Protecting and unprotecting a program are inverse and keep its content

*partial*, `Props/Tokenized.lean`. `protect`/`unprotect` and the coercion that follows, any sequence of calls.

Theorems: `C49_protect_partial`, `C49_data_untouched`, `C49_asm_false`, `C49_becomes_asm_false`.

Proved for programs not taken for assembly, for every sequence of calls; false for assembly programs, where both calls raise.

### C50 Lists round-trip their elements

*partial*, `Props/Array.lean`. `load_list` and `list` over arbitrary elements; chunks of nine or eighteen bytes.

Theorems: `C50_list_store`, `C50_list_read_partial`, `C50_flashless_false`.

Storing and the OverflowError proved in full. Reading back: proved for lists with flash bytes; a list without them cannot be read at all (AttributeError).

### C51 Every list a user can build can be loaded again

*partial*, `Props/Array.lean`. Loading through C23 and the class chosen by the first byte.

Theorems: `C51_list_loads_partial`, `C51_empty_false`.

Proved for nonempty lists whose first byte does not hide the element class; false for the empty list, which raises IndexError.

### C52 Matrices round-trip rows and columns

*partial*, `Props/Array.lean`. `load_matrix` and `matrix`; rectangular arrays as lists of rows.

Theorems: `C52_matrix_store`, `C52_ragged`, `C52_matrix_read_partial`, `C52_flashless_false`.

Storing and rejection proved in full. Reading back: proved for matrices with flash bytes; a matrix without them cannot be read (AttributeError).

### C53 A list or matrix gets the version of its most demanding element

*partial*, `Props/Array.lean`. `get_version` of arrays over their elements' versions.

Theorems: `C53_array_version_false`, `C53_array_version_partial`.

False: the version is 0 for every content. Partial: content whose elements all require version 0.

### C54 Pixel codecs are lossless on stored data

*proved*, `Props/Picture.lean`. `L1`, `RGB565`, `RGBPalette`; all bytes and byte pairs by arithmetic or by deciding the whole table of 256 bytes.

Theorems: `C54_l1`, `C54_l1_pixels`, `C54_rgb565`, `C54_palette`.

Full statement.

### C55 The palette picks a nearest colour and warns exactly when inexact

*proved*, `Props/Picture.lean`. Minimum of squared distances over the palette of 16 colours; the square root is monotone and left out.

Theorems: `C55_nearest`.

Full statement; distances are compared by their squares.

### C56 Pictures round-trip their pixel arrays

*proved*, `Props/Picture.lean`. Pixel arrays as lists of rows, C54 and chunking.

Theorems: `C56_mono`, `C56_mono_uneven`, `C56_picture`, `C56_image`.

Full statement, and what other pixels become.

### C57 A freshly loaded image reports the length the format requires

*partial*, `Props/Picture.lean`. `TIImage.load_array`, its length field and the reload.

Theorems: `C57_image_length_false`, `C57_image_length_partial`.

False for every image: the magic byte is not counted and reloading warns. Partial: everything but the length field survives, and the warnings are exactly known.

### C58 Window and table settings fields are independent

*proved*, `Props/Settings.lean`, `Props/SettingsNumber.lean`. Fields as consecutive views of nine bytes; history by induction over writes. `C58_number` puts in the conversion to `float` and `int`: the float nearest to a number of fourteen digits is whole exactly if the number is (below 2^53 by spacing, above because both are whole), so the warnings are stated of the number itself.

Theorems: `C58_write`, `C58_refused`, `C58_history`, `C58_read`, `C58_number`.

Full statement; the first four leave the conversion to int and float open, C58_number puts it in.

### C59 Equations of a graph database can be replaced individually

*partial*, `Props/Gdb.lean`. The equations of a database are found by scanning lengths; replacing the k-th is related to a list update.

Theorems: `C59_read`, `C59_replace`, `C59_equations_partial`, `C59_pair_false`.

Replacement and reading proved for every database; false for the style and colour of the Y component of a parametric curve, which are dropped.

### C60 A graph database keeps its length field in step with its equations

*partial*, `Props/Gdb.lean`. As C59 with the length field.

Theorems: `C60_length_false`, `C60_length_partial`.

False whenever the number of tokens changes. Partial: equations of the same length.

### C61 A fresh graphed equation is empty

*partial*, `Props/Gdb.lean`. `TIGraphedEquation` with its overlapping views.

Theorems: `C61_fresh_false`, `C61_fresh_partial`.

False: the new equation claims one token. Partial: after loading an equation, also an empty one.

### C62 Grouping and ungrouping is the identity

*partial*, `Props/Group.lean`. `TIGroup.group` and `ungroup`; induction over the list of entries with the read position.

Theorems: `C62_group_partial`, `C62_flashless_false`, `C62_list_false`, `C62_complex_false`, `C62_matrix_false`, `C62_name_false`, `C62_graphed_false`.

False: groups with lists, complex numbers or graphed equations, or starting with an entry without flash bytes, cannot be made; matrices and entries with names longer than three bytes are misread. Partial: lists of all other entries, nested groups included, come back with type, name, version, archived flag and data.

### C63 Flash blocks round-trip and carry a valid Intel-HEX checksum

*partial*, `Props/Flash.lean`. `TIFlashBlock` with hexadecimal text; the checksum by arithmetic modulo 256.

Theorems: `C63_block_partial`, `C63_checksum`, `C63_short`, `C63_empty_false`.

Proved for every block that has data, and that another checksum and missing data are noticed. False for blocks made without data, which cannot be serialised (AttributeError).

### C64 Flash headers survive a save/load round trip

*partial*, `Props/Flash.lean`. `TIFlashHeader.bytes` and `load_bytes`; exact condition for equality of bytes.

Theorems: `C64_load_partial`, `C64_roundtrip_partial`, `C64_exact`, `C64_len`, `C64_short`, `C64_new_false`, `C64_loaded_false`, `C64_reload_false`.

False for every header made by the library and for every loaded one whose name has not eight bytes or that has several devices. Partial: loading any header as flash files have it gives its fields; it serialises to the same bytes exactly when the name has eight bytes and there is one device.

### C65 Several flash headers in one file are all found

*partial*, `Props/Flash.lean`. `next_header_length` on concatenated headers, by induction on the offset.

Theorems: `C65_next_partial`, `C65_offset_partial`, `C65_end`, `C65_open_partial`, `C65_new_false`.

Proved for headers as flash files have them. False for headers made by the library, which have another layout.

### C66 Loading any string into a real number terminates

*proved*, `Props/Real.lean`. Totality of the model of `load_string`, whose loop is structural on the digits.

Theorems: `C66_load_string_terminates`.

Every string.

### C67 Names are read minimally up to the documented number of tokens

*partial*, `Props/Token.lean`. The name states of `tokenizer/state.py`.

Theorems: `C67_name_limit_false`, `C67_name_limit_partial`.

False of the code: one token more than documented is read minimally. Partial: names that end within the documented limits.

### C68 Loading a saved var does not report conflicting meta lengths that agree

*partial*, `Props/Var.lean`. `TIVar.load_bytes` with its warnings, C27.

Theorems: `C68_meta_conflict_partial`, `C68_meta_conflict_false`.

False for every var of two or more flashless entries; proved for flash entries.

### C69 Loading tokens into an entry and reading them back gives the same tokens

*partial*, `Props/Tokenized.lean`. `load_tokens` and `tokens`, C39.

Theorems: `C69_load_tokens_partial`, `C69_empty_false`.

Proved for nonempty sequences; false for the empty one, whose version comes from the replaced data.

### C70 Loading text into an entry stores the tokens of the text and reads back the same text

*partial*, `Props/Tokenized.lean`. `load_string` and `__format__`, C40.

Theorems: `C70_load_string_partial`, `C70_codes`, `C70_load_string_error`, `C70_literal_false`, `C70_quotes_false`.

The codes of the pieces are stored for every text that can be encoded. Reading back is false of byte literals, which are read as tokens, and of string entries with quotation marks at the ends, which are lost. Partial: text without byte literals.

### C71 Each of the ten image names is accepted and reads back

*partial*, `Props/Picture.lean`. `ImageName.get/set` for every text; the regular expression is modelled for ASCII digits.

Theorems: `C71_image_name_false`, `C71_image_name_partial`, `C71_image_name_default`.

False for the tenth image, whose name cannot be set. Proved for the other nine.

### C72 Loading the dictionary that settings produce gives the settings back

*partial*, `Props/Settings.lean`. `dict` and `load_dict`.

Theorems: `C72_dict_false`, `C72_dict_partial`.

False: loading always raises ValueError. Partial: loading changes nothing.

### C73 Numbers and equations of a graph database do not disturb each other

*proved*, `Props/Gdb.lean`. Numbers as views before the equations, C59.

Theorems: `C73_number`, `C73_equation`.

Full statement.

### C74 Flash data made of records is read back as the same blocks

*partial*, `Props/Flash.lean`. `FlashData.get/set`: splitting and joining at line ends.

Theorems: `C74_blocks_partial`, `C74_empty_false`, `C74_line_end_false`.

Proved for at least one record. False without records and with a line end after the last record (ValueError).

### C75 A new entry is blank

*proved*, `Props/Construct.lean`. `TIEntry.__init__` and `clear` and `TIGDB.__init__` and `clear` of all 48 classes by case analysis over the class table.

Theorems: `C75_blank`.

Full statement; the version of blank graph databases is computed from their equations and left open. That no OS version of the table is older than the initial one is a hypothesis, since the table is in a missing submodule.

### C76 Assigning data replaces the data and nothing but length and version

*partial*, `Props/Construct.lean`, `Props/Entry.lean`. `data` of all classes over one model of the `View`/`SizedData` setters.

Theorems: `C76_assign_partial`, `C76_too_long`, `C76_complex_short`, `C76_graphed_false`, `C76_graphed_too_long`, `C26_raise_false`.

False of equations of graph databases, whose data overlap the length, and of groups: data that cannot be ungrouped raise after the length has been changed. Partial: everything else.

### C77 A copy of an entry equals the entry

*partial*, `Props/Construct.lean`. `__copy__` and `__eq__`, C23.

Theorems: `C77_copy_partial`, `C77_asm_false`, `C77_empty_list_false`, `C77_misfire_false`, `C77_class_false`.

False of assembly programs and empty lists (copying raises), of entries whose flash bytes repeat the data length and of content that suggests another class. Partial: every other entry.

### C78 Fractions are rounded to the nearest 14-digit decimal

*proved*, `Props/Fraction.lean`. `load_fraction` through `Decimal` division (`Proofs/Decimal`); `Rounds` in `Spec/Fraction` states rounding to nearest even without reference to the algorithm.

Theorems: `C78_rounding`.

Full statement.

### C79 Texts, decimals and floats are loaded into fraction entries with their exact value

*proved*, `Props/Fraction.lean`. `Fraction(str)` is modelled by its grammar in `parseFraction`; literals are those of C15.

Theorems: `C79_text`, `C79_ratio`, `C79_zero`, `C79_decimal`, `C79_float`.

Full statement; texts are those of the grammar of literals without tilde and with a digit, and ratios of digit strings.

### C80 The text of a fraction entry loads back as the same fraction

*proved*, `Props/Fraction.lean`. C21, C79 and the text of fractions.

Theorems: `C80_text_roundtrip`.

Full statement.

### C81 Fractional multiples of pi round-trip

*proved*, `Props/Fraction.lean`. Three correctly rounded operations; their total error is below half the gap between fractions.

Theorems: `C81_pi_fraction`, `C81_sharp`.

Full statement; C81_sharp shows a fraction just above the bound which is lost.

### C82 The text of a fractional multiple of pi loads back

*partial*, `Props/Fraction.lean`. C81 and `replace` on the text.

Theorems: `C82_pi_text_partial`, `C82_pi_text_false`.

False of whole multiples of pi, which print without the pi that loading requires. Partial: every other fraction, and zero.

### C83 Multiples of pi are read from text in all their spellings

*partial*, `Props/Fraction.lean`. `TIRealPi.load_string`: `replace` and `strip` on the text, then C15's model.

Theorems: `C83_pi_partial`, `C83_pi_false`.

False of a bare pi, which loads as zero. Partial: every literal in all four spellings, and the refusal of other texts.

### C84 The text of a number is its value rounded to 14 decimals

*proved*, `Props/RealText.lean`. `realStr` (`Model/RealText.lean`) is the formatting of a number: rescaling of the stored decimal to 14 places with ties to even (`decRescale`), the digits with point (`decFixed`), and the two `rstrip` calls (`plainStr`). `Spec.RoundsAt` says in rational arithmetic what rounding to a number of places is, and the literal grammar of `Spec/Real.lean` gives shape and value of a text. The proof builds the literal from quotient and remainder by `10^14` and shows that stripping zeros does not change its value.

Theorems: `C84_text`.

Full statement. Python formatting with .14f is modelled from its documentation.

### C85 The text of a number loads back as the same number

*partial*, `Props/RealText.lean`. C84 gives the literal and its value; if the number has no digit beyond the 14th decimal the rounding is exact, and C17 says what loading the literal into a number does. The witness against the full statement is `10^-15`.

Theorems: `C85_reload_partial`, `C85_reload_zero`, `C85_reload_false`.

False of numbers with digits beyond the 14th decimal: 10^-15 prints as 0. Partial: every number with at most 14 decimals, and zero.

### C86 The text of a multiple of pi loads back

*partial*, `Props/RealText.lean`. `piStr` is the formatting of a multiple of pi, including the comparison with zero, for which the product with pi is modelled as in C81. The text is that of C84 with pi appended, C83 removes it again, and C17 gives the bytes. The witness against the full statement is zero.

Theorems: `C86_pi_text_partial`, `C86_pi_text_false`.

False of 0 times pi, which prints as 0 and cannot be loaded. Partial: every nonzero factor with at most 14 decimals.

### C87 Loading a radical from text gives the value the text denotes

*partial*, `Props/RadicalText.lean`. `radLoadString` follows `TIRealRadical.load_string`: the replacements (`radNormalize`), the completion of missing parentheses and denominator (`radOver`, `radFill`, `radComplete`), the summands (`radTerm`), ordering, sign type and the writes of the sections in order. The specification is a grammar (`Spec/RadicalText.lean`) with a real number as value, defined without reference to the parser. `radParse_text` computes the parse of every text of the grammar; `RadText.Loads` is the exact condition under which the code accepts it (`C87_load_partial`, `C87_refused`). Witnesses: `0`, `1000√2`, `√2/1000`, and the empty text.

Theorems: `C87_load_partial`, `C87_refused`, `C87_load_false`, `C87_large_false`, `C87_empty_false`.

False of "0" (refused), of numbers from 1000 on (stored as other numbers, no warning) and of the empty text (loads as 1). Partial: every text of the grammar with numbers below 1000 that the code accepts loads with its exact value; which texts are refused is characterised exactly.

### C88 The text of a radical denotes its value and loads back

*partial*, `Props/RadicalText.lean`. `radStr` and `radStrFull` follow `TIRealRadical.__format__` including `reduce`. `textOf` and `fullOf` are the texts of the grammar of C87 that are printed; `radStr_text` and `radStrFull_text` show the code prints exactly them, so C87 applies to reloading. The value is computed over the real numbers with Mathlib's square root. `ShortReads` says for the fields of a radical, in either order, whether its short text can be read at all; `textOf_loads` and `fullOf_loads` decide this, and `C88_value_partial` draws both conclusions.

Theorems: `C88_text`, `C88_reload_partial`, `C88_value_partial`, `C88_reload_false`.

The text always denotes the value of the fields. Reloading is false of zero and of a left part of zero; the same fields and text are proved for every radical with a nonzero left part and the larger radicand on the left. For fields in any order it is decided which texts are refused, and all others are proved to load as the same value; only equal roots that add up to more than three digits are left out, which C87_large_false covers by an example.

### C89 Setting a part of a complex number changes only that part

*proved*, `Props/Complex.lean`. `putReal` and `putImag` (`Model/Complex.lean`) follow the converters `RealPart` and `ImaginaryPart`, with the writes in the order of the code: the subtype of the assigned number, for the imaginary part also that of the entry and its coercion, then the nine bytes through the view of the entry. `getReal` and `getImag` look up the kind from the stored subtype. `Spec.partCode`, `Spec.partKind` and `Spec.complexKind` are the documented tables. `C89_value` shows that decimal value, radical fields and text do not depend on the low six bits of the first byte.

Theorems: `C89_set_real`, `C89_set_imag`, `C89_value`.

Full statement. Undefined numbers read back as ordinary ones.

### C90 Assigning a number as a part of a complex number does not change it

*partial*, `Props/Complex.lean`. The model of C89 returns the data of the assigned number after the assignment. The witness is -3, assigned as a real part; `coerceList` of C50 then takes a list of it for a complex list.

Theorems: `C90_assigned_number_partial`, `C90_assigned_number_false`.

False: the subtype of the assigned number is overwritten, so that a list made of it is taken for a complex list. Partial: only the low six bits of its first byte change, so value and text do not.

### C91 Complex numbers are read from text with both parts

*partial*, `Props/ComplexText.lean`. `loadComplexString` follows `ComplexEntry.load_string`: replacements, `strip`, `split`, the default parts, the loop over the other types after a failure of the real part, and the imaginary part. The specification is a grammar of texts (`Spec.ComplexText`) built from the literals of C15, with rational values. `complexParts_re`, `_im` and `_both` compute the splitting for every text; C15 gives the bytes of each part and C89 the entry. `C91_kinds_partial` states the same for parts of any kind in terms of what loading each piece as a real number does; `C91_other_kind` and `C91_no_kind` do so for a real part that its kind refuses (the first kind of `Spec.numberKinds` that reads it is taken, or `ValueError`). The check in the loop that skips the current kind never applies, because it compares type numbers of real numbers with subtypes of complex numbers (`realTypes_ne`).

Theorems: `C91_load_partial`, `C91_kinds_partial`, `C91_other_kind`, `C91_no_kind`, `C91_load_false`, `C91_forms_false`.

False: 1-i loads as 1-0i, 1e-5+2i as 1-5i, 1+2 as 1+2i. Partial: every text whose numbers have no sign in the exponent and whose bare unit is not negative; how the text is split is proved for all kinds of parts, and which kind is taken when the one at hand refuses the text of the real part.

### C92 The text of a complex number loads back

*partial*, `Props/ComplexText.lean`. `complexStr` follows `__format__` with an empty specification. The printed text is shown to be a text of the grammar of C91 (`Verif.printed`): the two replacements of three characters are computed in `both_text`. Then C91 applies, and a number of 14 digits is determined by its truncation. Witnesses: 2-i, and the fractions 3+2i, 2i and 3+i/2.

Theorems: `C92_reload_partial`, `C92_reload_false`, `C92_fraction_false`.

False of a-i, and of fractional parts, where the unit is lost. Partial: ordinary parts with at most 14 decimals, except a-i with a not zero.

### C93 The version of a complex number is that of its parts

*partial*, `Props/Complex.lean`. `getVersion` of C53 on complex entries, against the table `Spec.partVersion`. The witnesses are 1+2i and -1+2i.

Theorems: `C93_version_partial`, `C93_version_bit`, `C93_version_false`.

False: a sign or graph bit makes the version 0x10. Partial: all numbers without such bits.

### C94 The text of a real number determines its kind

*partial*, `Props/ArrayText.lean`. `firstReal` is the loop of `TIEntry.load_string` over the classes in the order of their type ids; each class starts from its blank data. The specification is an inductive type of texts (`Spec.NumText`) with their values. For each form it is shown that the earlier classes refuse the text, because it contains a character that they cannot read (`Verif.Proofs.ElemText`), and the theorems about the class itself (C15, C79, C81, C87, C83) give the value.

Theorems: `C94_element_partial`, `C94_refused`, `C94_forms_false`.

False: 2*3 loads as the radical 23, π as 0π, 3pi/4 is refused. Partial: all texts of the five forms that fit their class (ratios without ~, radicals that C87 covers, multiples of pi without exponent).

### C95 Lists are read from text element by element

*partial*, `Props/ArrayText.lean`. `loadListString` strips and splits as the code does. `list_split` shows that this recovers the elements; `C50_list_store` gives the bytes. The general theorem speaks of what each element loads as; `C95_numbers` and `C95_complex` combine it with C94 and C91.

Theorems: `C95_list_load_partial`, `C95_first_error`, `C95_numbers`, `C95_list_refused`, `C95_complex`, `C95_unit_false`, `C95_empty_false`.

False: the text of the empty list loads as [0], and the unit [i] loses its bracket at the end. Partial: all texts without delimiters inside the elements.

### C96 Matrices are read from text row by row

*partial*, `Props/ArrayText.lean`. `matrixTexts` models the chain of replacements and `splitStr` the split at two characters. `matrix_split` recovers the rows, by induction on them, for both ways of writing; then C52 applies.

Theorems: `C96_matrix_load_partial`, `C96_numbers`, `C96_ragged`, `C96_refused`, `C96_empty_false`.

False: [[]] loads as [[0]]. Partial: all matrices with elements.

### C97 The text of a list loads back

*partial*, `Props/ArrayReload.lean`. `element_text` shows for each of the five kinds that an element prints as a text of its own form in the grammar of C94; `join_space` moves the spaces after the commas into the elements; then C95 and C50 apply. Complex lists use the lemma behind C92 in the same way.

Theorems: `C97_list_text_partial`, `C97_complex_text_partial`, `C97_list_text_false`, `C97_unknown`.

False of the empty list and of whole fractions, which load as ordinary numbers. Partial: all lists of numbers whose text has the form of their kind.

### C98 The text of a matrix loads back

*partial*, `Props/ArrayReload.lean`. As C97, row by row (`rows_text`); `squash_matrix` removes the spaces between rows and elements before C96 applies.

Theorems: `C98_matrix_text_partial`, `C98_matrix_text_false`.

False of whole fractions. Partial: all matrices of numbers whose text has the form of their kind.

### C99 The dictionary of a graphed equation is stored as it says

*proved*, `Props/GdbDict.lean`. `loadEqDict` follows `load_dict` statement by statement on the parts of an equation; `equationOf` is the construction of `TIEquation` from a text (`equationOf_run`). Codes and flags are specified by the position in lists of names and by sums of bits (`Spec.codeIn`, `Spec.eqFlagByte`).

Theorems: `C99_load`, `C99_refused`.

### C100 The dictionary of a graphed equation loads back

*partial*, `Props/GdbDict.lean`. `GEq.dict` uses `data`, the view inherited from sized entries, which starts at the third byte and so inside the length field. `decode_null` shows that decoding a null byte in front of the tokens gives an illegal token and a warning; so the text is wrong for every such equation. `eqDict_run` gives the dictionary of any equation.

Theorems: `C100_reload_partial`, `C100_text_false`, `C100_reload_false`, `C100_mono_false`.

False of every equation with 1 to 255 tokens, whose text starts with an escaped null byte, and of equations without a colour. Partial: equations without tokens.

### C101 The dictionary of a graph database is stored as it says

*partial*, `Props/GdbDict.lean`. `loadGdbDict` and its parts follow `load_dict` and the methods `_load_dict` of the classes. The specification `Spec.Says` says for each part of the layout of C59 what the dictionary says about it; format settings decide bits in turn (`Spec.formatBit`). The proof runs the loops by induction with invariants on the parts (`numbers_run`, `entries_run`, `start_run`). Conversions of JSON numbers are parameters (`Spec.Converts`).

Theorems: `C101_load_partial`, `C101_sequence_false`, `C101_colors_false`, `C101_mode_false`.

False of dictionaries of sequences as the library writes them (KeyError), of colours for a database without, and of another mode. Partial: all other dictionaries with known names.

### C102 The dictionary of a graph database loads back

*partial*, `Props/GdbBack.lean`. `gdbDict` follows `dict`. `gdbDict_run` computes the dictionary, C101 loads it, and `says_back` shows that the database described is the same one, part by part. The counterexamples are evaluated by the kernel on a database with numbers whose JSON is their bytes.

Theorems: `C102_reload_partial`, `C102_mono_false`, `C102_tokens_false`, `C102_grid_false`, `C102_border_false`, `C102_sequence_false`.

False of databases without colours, sequences, equations with tokens, grids of lines and borders without a colour. Partial: all other databases with colours.

### C103 The minimum OS of an entry is that of the newest thing in it

*partial*, `Props/Support.lean`. `getMinOs` follows `get_min_os` of every class; groups are recursive, so a bound is given that `getMinOsN_fuel` shows to be irrelevant, since what comes out of a group is shorter than the group (`ungroup_shorter`). `Spec.Greatest` is the greatest of a list. The OS versions are any linear order; `OsEnv` names those the code uses.

Theorems: `C103_real_partial`, `C103_real_false`, `C103_complex_partial`, `C103_complex_false`, `C103_list_partial`, `C103_complex_list_partial`, `C103_complex_list_false`, `C103_tokens`, `C103_asm`, `C103_group`, `C103_gdb_partial`, `C103_class`.

False of negative fractions, whose sign bit hides the fraction, and of complex numbers with a sign bit or exact parts, for which asking raises TypeError. Partial: numbers without sign and graph bits; graph databases whose equations have fewer than 256 bytes and do not start with a null byte; tokens, assembly programs, groups and all other classes in full.

### C104 A model supports what its latest OS and its features allow

*partial*, `Props/Support.lean`. `Model.features` follows the chain of updates of the feature dictionaries; the models of each feature are listed in `Spec.featureModels` and compared for all models and features. `supportedBy` follows `supported_by` of the classes with the minimum OS of C103. `Var.supportedBy` is computed by `allBelow_eq` for any number of entries.

Theorems: `C104_features`, `C104_real`, `C104_other`, `C104_list_false`, `C104_complex_partial`, `C104_complex_false`, `C104_complex_list_partial`, `C104_complex_list_false`, `C104_var`, `C104_var_partial`, `C104_var_false`.

False of lists and matrices of radicals, of complex numbers, alone or in lists, with a sign bit or exact parts (TypeError) and of vars holding radicals. Partial: all other entries and vars.

### C105 Saving a var and opening the file gives the var back

*partial*, `Props/Files.lean`. A directory is a function from names to contents (`Files`); `Var.save` empties the file before it computes the bytes, as the code does, and `Var.openVar` constructs an empty var and loads. The round trip is C27 through the file, the sizes are C28, the minimum OS and support C103 and C104. `C105_warnings` gives the list of warnings of a save for a model exactly.

Theorems: `C105_save_open_partial`, `C105_failed_false`, `C105_warnings`, `C105_boundary_false`, `C105_exact_false`, `C105_name_partial`, `C105_name_false`.

False of failed saves, which empty the file; of paths with a dot in a directory, which are given no extension; and of warnings for entries needing the latest OS and for radicals. Partial: vars of storable entries of less than 65536 bytes in all, whose minimum OS can be asked for.

### C106 Saving an entry and opening the file with its class gives the entry back

*partial*, `Props/Files.lean`. `openFile_bytes` runs `open` on the bytes of any var with the stream lemmas of C32; the two bytes skipped behind the first entry are the checksum only if there is no second, otherwise the comparison is with the length of its data (`Spec.restWarning`). Loading into the class of the entry is as in C77 (`load_settled`). `extension_mem` and `extensionWarns_ext` show that the default file names are accepted.

Theorems: `C106_export_partial`, `C106_export_false`, `C106_first`, `C106_save_open_partial`, `C106_several_false`.

False of entries without data, for which another entry is exported, and of files of several entries unless the second has 11 or 13 bytes of data. Partial: entries with data whose content agrees with their class.

### C107 An entry formats as its bytes in hexadecimal

*partial*, `Props/Hex.lean`. `formatHex` is `TIEntry.__format__`: `matchHex` is the regular expression, `bytesHex` is `bytes.hex` with its two ways of counting (`hexLeft`, `hexRight`) and its range checks. `Spec.Grouped` says what the groups are without saying how they are found. `matchHex_width` and `matchHex_some` characterise the regular expression in both directions.

Theorems: `C107_hex`, `C107_back`, `C107_fromhex`, `C107_refused`, `C107_range`, `C107_separator_false`.

False of letters as separators, whose case is changed too. Everything else is proved for all specifications.

### C108 A tokenized entry formats as the names of its tokens

*partial*, `Props/TokenFormat.lean`. `matchToken` is the regular expression with its backtracking written out: the shortest line format first (`matchLines`), then the longest separator (`matchSep`). `matchToken_text` shows that it recovers the parts of every specification of the documented form, `matchToken_hex` that it leaves the hexadecimal ones to C107 in the cases stated. Names of tokens and Python's formatting of whole numbers are parameters.

Theorems: `C108_tokens`, `C108_lines`, `C108_language`, `C108_number_refused`, `C108_hex_partial`, `C108_hex_false`, `C108_language_false`.

False of hexadecimal text with a small x and a separator, which is taken for line numbers, and of entries with illegal bytes in languages other than English. Partial: all other specifications.

### C109 A number formatted for typing can be loaded again

*partial*, `Props/Typeable.lean`. `typeableReal` and `typeableComplex` are the replacements of the two `__format__` methods, `sqrtSub` is the regular expression for roots. `Literal.calc`, `NumText.calc` and `ComplexText.calc` write the forms of C15-C21 and C91 with the keys of a calculator, without replacing anything. `typeable_calc` and `keysC_text` show that the replacements give these texts. They are read by writing `~` as the sign (`tilNum`, `tilComplex`), which are again forms of C95 and C91. Refusal is by a letter that no loader drops (`letter_refused`) or a sign inside a number (`inner_minus`).

Theorems: `C109_text`, `C109_reload_partial`, `C109_refused`, `C109_reload_false`, `C109_complex_text`, `C109_complex_partial`, `C109_complex_refused`.

False of numbers with a denominator, whose n/d no loader accepts, and of complex numbers with a nonzero real and a negative imaginary part. Partial: all other numbers whose ordinary text is of the form of their kind; the text itself is proved for all of these.

### C110 A list or matrix formatted for typing can be loaded again

*partial*, `Props/Typeable.lean`. `listTypeable` and `matrixTypeable` join the texts of C109. The lists and matrices are read by C95 and C96; for complex lists, whose elements have brackets of their own, `complex_split` and `cut_refused` follow the stripping of brackets: the one of the last `[i]` is stripped with the brace, and what is left is refused.

Theorems: `C110_list_partial`, `C110_list_refused`, `C110_matrix_partial`, `C110_matrix_refused`, `C110_complex_partial`, `C110_complex_refused`, `C110_reload_false`.

False of lists and matrices with an element of which C109 is false and of complex lists whose last element has an imaginary part. Partial: all others.

### C111 What a dictionary of a graph database has too much is reported and ignored

*partial*, `Props/GdbUnknown.lean`. `Louder` relates two runs that end alike, one with more warnings; `Louder.bind` carries it through a sequence of statements and `each_filter` through the loops, since every statement leaves the class of the entry (`KeepsClass`). `onlyKnown` filters the names by the lists of names of the specification, not those of the model. For settings of sequences `whole_run` computes the run with the settings that do not count replaced.

Theorems: `C111_unknown`, `C111_load`, `C111_sequence`, `C111_sequence_unknown`, `C111_null`, `C111_flags_false`, `C111_forms_false`.

False of the names of extended settings, colour settings and forms of sequences among the format settings, which change the format without a warning. Partial: all other names, also together with settings of sequences. With null as the mode these raise AttributeError.

### C112 Loading an object runs the method meant for its kind

*partial*, `Props/Dock.lean`. `Cls.loaders` builds the table of each class as `Loader.__set_name__` does, from the loaders of each class body (`ownLoaders`) and the method resolution order (`c3Merge`); `dockLoad` walks it. `dockLoop_tried` reduces a run to the list of loaders tried, whatever they do; that list is compared with `Spec.meant` and `Spec.MostDerived` for all classes and kinds by evaluation (`table_ok`), which is the whole domain. The loader methods themselves are a parameter.

Theorems: `C112_load_partial`, `C112_unwanted`, `C112_wanted`, `C112_file_false`, `C112_tokens_false`, `C112_equation_false`, `C112_fraction_false`.

False of file objects, of sequences of tokens, of equations for graphed equations and of fractions for fractional multiples of pi. Partial: all other kinds of objects, in all classes.

### C113 A graphed equation made from a text, a dictionary, an equation or another one holds what these say

*partial*, `Props/Graphed.lean`. `newGraphed` is `TIEntry.__init__` followed by the three assignments of `TIGraphedEquation.__init__`; `newGraphed_run` shows what these leave of whatever `init` loaded. What is loaded comes from C99 for dictionaries, from `loadString` for texts, and from `graphed_load` for the bytes of an equation.

Theorems: `C113_text_partial`, `C113_dict_false`, `C113_equation_false`, `C113_copy_false`.

False of dictionaries, equations and copies: what is said of style, colour and flags is lost, and of an equation the first byte of the length is overwritten. Partial: texts.

### C114 The decimal value and the sign of a radical are those of its fields

*partial*, `Props/RadicalValue.lean`. `decSqrt`, `decAdd`, `decMul` and `decTrueDiv` are the operations of the decimal module at 28 digits, computed exactly on integers and then rounded. Each is shown to have a relative error of at most half a unit (`decSqrt_error`, `decTerm_error`, `decAdd_rounds`), which gives an absolute error of 3·10^-27 times |a|√m + |b|√n (`radDecimal_error`). That the difference of the two terms is either zero or not too small comes from a²m - b²n being an integer (`roots_gap`), which turns the absolute error into a relative one and fixes the sign. The true value is a real number of Mathlib with its square root.

Theorems: `C114_value_partial`, `C114_sign_partial`, `C114_denominator`, `C114_zero_false`.

False of radicals whose roots cancel exactly: their decimal value need not be zero and their sign may be -1. Partial: all radicals whose value is not zero; if it is, the decimal value is at most 10^-21.

### C115 Negating a number gives the number of opposite value

*partial*, `Props/Negate.lean`. `negate` is the copy of C77 followed by the sign bit of C20; `negate_run` puts the two together. The value of all kinds but radicals is computed from the decimal of C20; `decFix_neg` shows that rounding the product with pi does not depend on the sign. For radicals, `radFields_head` shows that the fields do not depend on the first byte.

Theorems: `C115_negate_partial`, `C115_radical_false`.

False of every radical: the sign bit is no part of its value, so that its negation has the same value, sign and text. Partial: all other kinds of real numbers.

### C116 An image saved with the Pillow plugins opens with the same size and pixels

*partial*, `Props/Pil.lean`. `saveImage` and `openImage` follow `encode`, `_open` and `decode`; the pixels of Pillow are a list of components, and warnings are errors in `_open`. The arrays are those of C56 and C57, the file is that of C41 with one entry (`load_single`), and `picture_reload` shows that a picture is loaded from it unchanged and without a warning. For images `image_reload` of C57 gives the warning that makes opening fail.

Theorems: `C116_mono_partial`, `C116_picture_partial`, `C116_image_false`, `C116_size_false`, `C116_refused`.

False of images (.8ca), which are saved with a length that the plugin then refuses, and of images of another size with the same number of components. Partial: both kinds of pictures.

### C117 Flags and models compare as the numbers they stand for

*partial*, `Props/Ordering.lean`. `rawInit`, `rawUpdate`, `rawText` and `rawInt` follow flags.py with arbitrary numbers as values; `totalOrdering` and `richCompare` are the decorator of `functools` and the protocol for comparison operators, applied to the tables of methods of the two classes. `FlagsOf` says that the bits are those of a number; `rawInt_flagsOf` reads the text back. Which model comes where is a parameter, since the token sheets with the order are not in the repository.

Theorems: `C117_new`, `C117_number`, `C117_flags_partial`, `C117_flags_false`, `C117_update_false`, `C117_models`, `C117_models_shared`.

False of <= and >= of flags, which always raise, and of updates with other numbers than 0 and 1. Partial: < and > of flags; models whose places differ.

### C118 Loading a complex number of Python stores both of its parts

*partial*, `Props/ComplexNumber.lean`. `loadComplexNumber` follows `load_complex`; a finite float is a sign, a mantissa and a power of two. `realFloat_kept` and `loadRealFloat_kept` turn C15, C78 and C79 into one statement about what a number keeps of a float (`Kept`: cut off or rounded to 14 digits). Storing the parts is C89.

Theorems: `C118_load_partial`, `C118_other_parts`, `C118_refused`, `C118_exact_false`.

False of entries one of whose parts is a radical or a multiple of pi: nothing can be loaded into them. Partial: entries whose parts are real numbers or fractions.

### C119 float, int and complex of a number are the nearest float, its whole part and the pair of its parts

*partial*, `Props/Float.lean`. `floatOfFrac` is the correctly rounded quotient of two natural numbers that CPython computes from the text of a decimal; `divRound_spec` and `log2Frac_spec` give `NearestFloat`, which speaks of all numbers of 53 bits (`HasBits`) and not of mantissas and exponents. `storedNumber` reads the nine bytes by itself. That whole parts are right below 2^53 follows from the relative error 2^-53 (`nearest_error`): a number of 14 digits that is not whole is farther than that from all whole numbers. Overflow and subnormal floats are out of reach of the exponents.

Theorems: `C119_float`, `C119_float_decimal`, `C119_int_partial`, `C119_int_false`, `C119_complex`.

False of int: numbers above 2^53 become the whole number nearest to their float. Partial: numbers below 2^53.

### C120 A number written to JSON is read again as the same number

*partial*, `Props/JsonGdb.lean`, `Props/JsonNumber.lean`. `floatStr` is the text of a float as Python writes it: the shortest digits that name it, found by trying one digit after the other, written plainly or with an exponent. `floatStr_literal` shows that for the float nearest to a number of up to 14 digits this text is a literal of that number: two such numbers do not have the same nearest float (`fourteen_unique`), so that the search ends at the number itself. `load_tidy` then reads any literal of the stored number into the stored bytes, by C15 and C17. `HasDigits` and `HasBits` speak of numbers and not of texts. `load_near` bounds what the detour by a float costs; at the smallest exponent it needs that the float nearest to 10^-128 is not below it (`tiny_float`). For databases the numbers are put into C102, in which they had been a parameter.

Theorems: `C120_reload_partial`, `C120_close`, `C120_whole`, `C120_false`, `C120_gdb_partial`, `C120_gdb_false`, `C120_kind_false`.

False of numbers of up to five digits that are no floats: 0.3 becomes 0.29999999999999, also in graph databases, and of fractions and multiples of pi, which become plain numbers. Partial: numbers with six digits or more and numbers that are floats; for all others at least twelve digits are kept.

### C121 An entry made from another entry is equal to it

*partial*, `Props/Init.lean`. `newFrom` runs the constructor of C75 with the bytes of the other entry. `load_settled` gives what loading them leaves, whatever the entry was before; `newRest_load` carries that through the rest of the constructor and `setColors_run` through the colours. `Settled`, from C77, says that the content agrees with the class.

Theorems: `C121_init_partial`, `C121_gdb_partial`, `C121_colors_false`, `C121_version_false`.

False of colour databases, whose grid and axes colours are replaced, and of the version, which is computed anew unless one is given (and then that one is ignored). Partial: everything but the version and these colours.

### C122 mono() of a colour graph database is the same database without its colours

*partial*, `Props/Init.lean`. `mono` loads the bytes of the entry without the last 18, 14, 14 or 11. `loadBase_cut` shows what loading the bytes of an entry without its last bytes gives and that it warns; the parts are those of `Plot`, C60, and `colorData_plot` shows that there are no colours left. `C122_length_false` is not a single witness but holds of every database whose length field is right.

Theorems: `C122_mono_partial`, `C122_length_false`.

False of the length field, which is never adjusted, so that there are always two warnings. Partial: class, type, name, flag and all parts of the content.

### C123 A copy of a header or of a var is equal to it

*partial*, `Props/Join.lean`. `copyVar` runs the constructor, writes the var and loads it. `load_exact` proves C27 with classes for entries that are `Exact`: `coerce_fromFile` follows the coercion from the base class to the class of the entry, through the length and the mode byte for graph databases. `C123_name_false` holds of every copy: `load_header` shows that loading keeps the model, which is none.

Theorems: `C123_header`, `C123_copy_partial`, `C123_eq`, `C123_name_false`, `C123_mono_false`.

False of the name and the model of a var, which copies never have, and of vars with monochrome graph databases. Partial: headers, comparisons, and header and entries of vars.

### C124 A header joined with entries is the var with that header and these entries, and is independent of other vars

*partial*, `Props/Join.lean`. `Store` has the contents of all header objects, so that sharing can be expressed; `join` and `loadInto` work on it. `pick` stands for `set.pop` and is any function that chooses one of the models. `load_header` shows what loading does to the header even if it raises later, and `C124_shared_false` holds of all pairs of vars made from one header.

Theorems: `C124_join_partial`, `C124_separate`, `C124_empty_false`, `C124_falsy_false`, `C124_shared_false`.

False of empty lists, of entries without data and of vars made from one header, which share it. Partial: entries with data; vars with headers of their own.

### C125 The JSON text of a graph database or of settings loads back as the same dictionary

*partial*, `Props/GdbText.lean`. `dump` and `loads` are models of the standard library with its escapes, surrogates, white space and repeated keys; `parse_dump` proves by induction on the value that what is written is read, whatever follows, with floats by `floatStr_reads`: their shortest text names the float itself. `loads_error` shows that the bound on the depth in the model is never reached, so that all errors are `ValueError`. `Proper` says what values Python can have: no key twice, and floats with at most 53 bits. `readGdb` takes the keys that `load_dict` looks at out of a dictionary and `readGdb_json` shows that nothing is lost; `gdb_proper` that dictionaries of databases are proper. The bytes then follow from C120.

Theorems: `C125_json`, `C125_read`, `C125_text`, `C125_back_partial`, `C125_invalid`, `C125_emptied`, `C125_emptied_false`, `C125_settings_false`, `C125_pairs_false`.

False of JSON that is no dictionary, which empties the database before it is refused, and of settings, whose text can never be loaded. Partial: the same bytes for plain function, parametric and polar databases with numbers that survive JSON (C102, C120).

### C126 Loading no dictionary, or null, makes a graph database the standard one of its mode

*partial*, `Props/GdbDefault.lean`. The texts of the four default files are in the model, copied by a program, and are parsed by the model of JSON of C125 inside Lean (`default_func`, `default_param`, `default_polar`, `default_seq`). C101 then says what the database becomes; `says_unique` shows that there is only one database that says what a dictionary says, and `std_says_func` and its companions that the standard one does, where `standardPlot` is written down as bytes. `std_good` shows that the numbers convert without a warning; that 6.283185307 and 0.13089969389957 are not floats does no harm here, since the floats lie just above them. `C126_sequence_false` holds of every sequence database with colours and all token sheets.

Theorems: `C126_load_partial`, `C126_null_partial`, `C126_sequence_false`, `C126_mono_false`, `C126_base_false`.

False of sequence databases, whose default is refused with KeyError; of databases without colours, which are corrupted; and of the classes without a mode, which have no default. Partial: function, parametric and polar databases with colours.

### C127 A flash header is saved under its name with the extension of the model, and opening the file gives the header

*partial*, `Props/FlashFile.lean`. `extension` searches all models as the code does; `flash_find` shows that the search finds something exactly if the model itself is listed, whatever the order of models, since the condition tests `model` instead of `min_model`. `flashExtension` is a table of its own and `listed_iff` compares it with that of the model, row by row. Saving and opening use C64 and C65. `C127_new_false` follows the look-ahead and the load over the 80 bytes that are read of a new header.

Theorems: `C127_extension_partial`, `C127_default`, `C127_extension_false`, `C127_save_open_partial`, `C127_missing`, `C127_emptied_false`, `C127_new_false`.

False of models that are not listed themselves, which get the default extension; of headers whose bytes cannot be made, for which the old file is emptied; and of all new headers. Partial: listed models; headers with a name of eight bytes and one device.

### C128 The attributes of a flash header say what is in its sections and can be assigned

*partial*, `Props/FlashView.lean`. Reading follows from the shape of a loaded header. `put_immutable` shows that assigning to a view of a `bytes` object raises whatever the view and the value; all sections of flash headers are such objects. `wide_bytes` gives the bytes of a header whose name has been padded to 31 bytes, which are 23 too many, and C64 what loading them gives.

Theorems: `C128_read`, `C128_devices`, `C128_assign_false`, `C128_name_partial`, `C128_name_false`.

False of device type, type ID, data and license, to which nothing can ever be assigned, and of headers with an assigned name, which no longer load. Partial: reading all of them; assigning devices; assigning names as far as reading them back.

### C129 The dictionaries of graph databases and the schema shipped with the library agree

*partial*, `Props/GdbSchema.lean`. The text of the schema file is copied into `Model/GdbSchema` by a program; `schema_text` evaluates the model of `json.loads` on it. `Spec/Schema` says what the seven keywords of the schema mean as an inductive predicate on values, without reference to the library. `Proofs/GdbSchema` turns each part of the schema into a plain condition, `fits_gdb` puts them together for all dictionaries, and `gdb_out` says which names a dictionary of a database can have; `C129_dict_partial` is an equivalence. The default texts are evaluated with a checker that is proved sound. `C129_read` goes the other way, from any conforming value, and `C129_load_partial` feeds what it gives to C101. Missing: nothing of the true part of the first sentence; of loading, dictionaries of sequences (see 41) and incomplete equations, which are refused.

Theorems: `C129_dict_partial`, `C129_color_false`, `C129_style_false`, `C129_vertweb_false`, `C129_default`, `C129_read`, `C129_load_partial`, `C129_load_false`, `C129_line_false`.

False of every database with colours, of unnamed modes, styles and colours and of VertWeb; it is proved exactly which dictionaries conform. The default dictionaries conform. Loading: dictionaries that conform have known kinds and names only; complete ones without settings of sequences load; incomplete ones are refused, and the style of lines is ignored.

### C130 Numbers print with a chosen number of decimals, also for typing and inside lists and matrices

*partial*, `Props/FixedText.lean`. `decFormat` follows `Decimal.__format__` for `.Nf`, with `decRescale` as in C84; `floatFormat` rounds the exact value of a float in the same way, and `complexFormat` puts the parts of a Python `complex` together, including the signs of zeros that `x + 1j * y` gives. `fixedLit` is the literal printed, `RoundsAt` (Spec/Fraction) says independently what rounding to `N` places is. For multiples of pi and radicals the decimal value is the one of C114 and C86, whose distance from the exact value is proved there.

Theorems: `C130_real`, `C130_stored_partial`, `C130_error`, `C130_list`, `C130_matrix`, `C130_complex`, `C130_complex_false`.

False of every complex number: with decimals the text for typing has the letter j instead of [i]. Rounding is proved for all kinds of numbers, lists and matrices; reloading for numbers stored by their digits whose text has at most 14 digits.

### C131 The name given to an entry is stored as its tokens and reads back as them

*proved*, `Props/EntryName.lean`. `Model/EntryName` has the converters of the section `name` for every class, with the functions that equations and strings put before them; the reading of tokens is `encode` of the model of the tokenizer. `ReadAs` says what reading with the longest or shortest names is in terms of `Pieces` and `IsMunch` (C22), without the trie, and `Spelled` which text is read. `encode_reads` and `encode_unread` connect it with the encoder (`encodeLoop_outcome`, `Pieces.rest`), `decode_name` with the decoder, and `fit_name` shows that stripping zeros and padding again gives the same eight bytes. Strings: `str.capitalize` and `str.upper` are modelled for ASCII and the letters of the token sheet.

Theorems: `C131_stored`, `C131_long`, `C131_error`, `C131_spelled`, `C131_again`, `C131_settings`.

### C132 A list is stored under the name it is given and keeps the name it shows

*partial*, `Props/EntryName.lean`. As C131, with `ListName`. `AsciiTokens` says that capitals and digits are tokens with their ASCII codes, which is true of the token sheets of all models; the negations need nothing else about the sheet, as the shortest name wins. `C132_custom_false` is about every name of one to five letters and digits, such as the `Z` of `tests/data/var/RealList.8xl`.

Theorems: `C132_stored_partial`, `C132_builtin_read`, `C132_builtin_false`, `C132_custom_false`, `C132_idlist_false`.

False of L1 to L6, which are stored as a letter and a digit, of names of users, which lose their first byte when assigned again, and of IDList. Partial: the name is stored as the tokens of the text in capitals and reads back, with the warning about its length.

### C133 Loading damaged bytes warns and never raises

*partial*, `Props/LoadFault.lean`. `Spec/LoadFault.lean` says from the raw bytes which exception is raised: `dataIn` and `typeIn` cut out the data and the type byte, `loadFault` compares the amount of data with what the class needs. `Proofs/LoadFault.lean` follows every branch of `load_bytes`, coercion and the checks of the classes, for arbitrary bytes. For vars `Cut` says which pieces the loop hands out, including those from before the current position when the look-ahead runs into the end. The classes that are only bases (`TokenizedEntry`, `SizedEntry` and so on) are left out; entries of them are not made by loading.

Theorems: `C133_entry_partial`, `C133_var_partial`, `C133_flash_partial`, `C133_load_false`.

False of lists without a first element (IndexError), complex numbers without imaginary part (ValueError), the classes of assembly programs (UserWarning) and flash headers shorter than 50 bytes; one such entry makes a whole var fail. Partial: for arbitrary bytes, exactly which exception is raised, from the class, the type byte and the amount of data; in all other cases there is none.

### C134 Every existing file can be opened

*partial*, `Props/OpenFault.lean`. `openFault` is computed from the contents of the file. The model of `open` raises `OSError` where a file would have to be left before its start, which the streams in memory do not do; the two thresholds (2 and 78 bytes) are derived in the comments of `openAs` and `openAt`. The negation has the empty file, which opens as a var only, and a var file with an empty list, which opens as nothing.

Theorems: `C134_entry_partial`, `C134_var_partial`, `C134_flash_partial`, `C134_open_false`.

False of files with fewer than two bytes opened as an entry and fewer than 78 opened as a flash header (OSError), and of what C133 excludes. Partial: exactly which exception is raised for arbitrary contents; every file of 78 bytes or more opens as a flash header, and no file is changed.

### C135 A new entry has the name it is given and by default the first name of its type

*partial*, `Props/NewNamed.lean`. `newNamed` is the constructor with the name as text, `new` the one with the name already converted; `new_blank` gives all other fields. `firstName` is a table of its own, from the codes calculators use, and `FirstTokens` says that the token sheet has these tokens under these codes; it is checked for the sample sheet. The default texts are then read with C131. Graphed equations, whose constructor has other arguments, are in C113.

Theorems: `C135_named`, `C135_default_partial`, `C135_default_false`.

False of lists, whose default name L1 is stored as a letter and a digit. Partial: the default names of all other classes (the general part, about given names, is proved for lists too).

### C136 A program is taken for an assembly program exactly if it is one

*partial*, `Props/Program.lean`. `Spec/Program` says in terms of tokens what an assembly program is. `hasSub_codes` shows that the search for two bytes in the data finds a token if no code of the sheet ends with the first of them (`CleanEnds`; an example has a sheet where it fails), `load_program` follows loading to the class. Programs with bytes that are no tokens are not in the partial theorem; for them the code also asks for `EF 68` behind the first byte.

Theorems: `C136_class_partial`, `C136_text`, `C136_anywhere_false`.

False of programs that contain a mark, or its two bytes, anywhere but at the start, for instance inside of a string: they become assembly programs. Partial: programs without a mark behind the first token; for all programs made of tokens it is proved exactly which become assembly programs.

### C137 A container of tokens finds every token by its code and by each of its names

*partial*, `Props/TokBox.lean`. `Model/TokBox` has tokens with names in several languages, unlike `Tok`, which has those of one. Dictionaries are association lists with assignment and lookup; `Spec/TokBox` says when a sheet is complete (`Closed`, `Translated`, `HasEnglish`), consistent (`Indexed`) and free of clashes. `assocGet_fold` and `named_flat` turn the nested comprehension into "the last language with the name"; `box_trie` uses the theorem on tries of C37. How the sheet is read from XML is in the empty submodule and not modelled; the sheet is a parameter.

Theorems: `C137_new`, `C137_codes`, `C137_names_partial`, `C137_names_false`, `C137_tries`.

False of a name that two languages give to different tokens: the last language decides, even against the English name. Partial: sheets in which no name stands for two tokens; in general it is proved which token is found. The other parts are proved in full, for tries of sheets whose indices agree with their tokens.

### C138 The equation taken out of a graphed equation is the one put in

*partial*, `Props/Extract.lean`. `equationOut` saves the entry, cuts the byte with the flags out by two slices with negative bounds, and constructs an equation of the rest; `ignoreDataLength` is the filter of warnings. `load_withoutFlags` compares the rest with an entry that has one byte more, so that the general theorem on truncated entries (`loadBase_cut`) applies. What an equation in a graph database is made of is said by `PlotEq` in `Spec/Gdb`.

Theorems: `C138_equation_partial`, `C138_inverse`, `C138_equation_false`.

False of a graphed equation whose version and archive flag read as a number are the length of its data: it is taken for one without flash and the equation taken out is shifted by two bytes. Partial: all others, for which the entry taken out, its warnings and both directions of the round trip are proved.

### C139 Every pixel of a picture is read from and written to the place where calculators keep it

*proved*, `Props/Layout.lean`. `Spec/Layout` gives for each kind of picture the pixel in column x of row y as a function of the data; it mentions single bytes and bits only and knows nothing of rows being sliced, chunks or converters. `C139_mono`, `C139_picture` and `C139_image` compare it with `array()` for arbitrary data; the written forms follow with C56.

Theorems: `C139_mono`, `C139_picture`, `C139_image`, `C139_mono_written`, `C139_picture_written`, `C139_image_written`.

### C140 Going through a list or matrix gives its elements in order, as many as it says

*partial*, `Props/Iterate.lean`. `chunks_index` says which bytes the groups of `zip(*[iter(data)] * n)` are; for matrices it is used twice. `mapW_pieces` makes the numbers; that their classes are those their type bytes name is `FitsList` of C50.

Theorems: `C140_list_partial`, `C140_matrix_partial`, `C140_length_false`.

False of lists and matrices whose length field or number of rows does not agree with their data: these are not looked at. Partial: the elements come from all complete groups of the data, whatever the field says, and are as many as the field says exactly if the data are that long; without flash reading raises (C50, C52).

### C141 A text loaded into a program, string or equation comes back from its file

*partial*, `Props/TextFile.lean`. `save_open_coerced` (`Proofs/OpenAny`) is C106 with the class left open: it needs only what loading does to the class. `coerce_tokenized` gives that for entries of tokens, and `text_class` says that tokens and text do not depend on it, so that assembly programs are included. `load_string_full` in `Props/Tokenized` is what C70 proves, in full.

Theorems: `C141_text_partial`, `C141_long`, `C141_flash_false`.

False of short texts whose computed version is the length of the entry: a program of ten bytes using eval( has version 12 and is read back shifted by two bytes. Partial: every text for which version and archive flag do not read as the length, in particular every text of at least 43 bytes in an entry that is not archived.

### C142 Numbers, lists, matrices and pictures come back from their files

*partial*, `Props/ValueFile.lean`. Each part puts together what storing gives (C15, C50, C52, C56) and `save_open_coerced`. The flash guess cannot go wrong because the version of these entries is 0 or 10 and their lengths are other numbers. For lists the class is chosen by the first number; with a multiple of pi by a fraction there is a warning and the class stays.

Theorems: `C142_real`, `C142_zero`, `C142_list_partial`, `C142_matrix`, `C142_mono`, `C142_picture`, `C142_image`, `C142_empty_false`.

False of the empty list, whose file cannot be opened. Everything else of the statement is proved; a list that begins with a multiple of pi by a fraction, and every image, open with a warning that is not about damage.

### C143 A group comes back from its file with everything in it

*partial*, `Props/GroupFile.lean`. `group_made` gives the whole entry that grouping makes, `stored_open` brings it back from the file, and ungrouping it is C62. That the flash bytes are not the length follows from the archive flag alone unless the data has between 32766 and 33021 bytes. `C143_length_false` groups one AppVar of 32756 bytes, computes the version of the group, which is 0, and applies `C23_misfire_false`, which now also says that class, type and name are kept.

Theorems: `C143_group_partial`, `C143_length_false`.

False of groups whose data has 32766 bytes, or as many more as their version says: version and archive flag are then taken for the length and the data are shifted by two bytes. Partial: all groups with fewer than 32766 or more than 33021 bytes of data, of entries that can be grouped (C62).

### C144 Opening a saved entry warns exactly of what is unusual about it

*partial*, `Props/Opening.lean`. `dataWarnings` and `loadWarnings` say in terms of the bytes of the entry what has to be reported; `load_exact` proves that loading reports just that, from the checks of C23 and the equations `checkSized_eq` and `checkTokens_eq`; `C144_open` adds the file (C106) and the warnings of making the new entry, of which there are none outside graph databases. `C144_assigned_partial` shows that the conditions are met after assigning data, unless the version needed is one the library itself does not list (C47).

Theorems: `C144_open`, `C144_quiet_partial`, `C144_assigned_partial`, `C144_stray_false`.

False of lists and matrices with seven or more stray bytes, or the last element of which lacks one or two bytes: the number of elements is compared with the length of the data and the length field together. Partial: silence is proved equivalent to the conditions that are really asked.

### C145 A graph database described by a dictionary comes back from its file

*partial*, `Props/GdbFile.lean`. C101 gives the database that the dictionary describes; `said_length` counts its bytes, `said_settled` shows that its content asks for the class it has, and C144 gives what saving and opening do to it and the exact warnings. `C145_length_false` computes the sample dictionary of C101 through a file.

Theorems: `C145_file_partial`, `C145_length_false`.

False of dictionaries with equations: the length field stays that of a database without tokens, and opening the file says so. Partial: everything but that warning, unless version and archive flag of the entry read as its length.

### C146 A text loaded into an entry of no class of its own makes it what the text denotes

*partial*, `Props/AnyText.lean`. `registered` is the order in which `import tivars` runs the class statements. `C146_first` and `C146_refused` are inductions over it for arbitrary constructors: a failing constructor leaves the entry alone, a succeeding one is loaded from its bytes by C23. For the classes of real numbers `keepsNine_string` shows that every loader keeps nine bytes and the type in the first, so that what it makes can be loaded again; `C146_real` concludes that the loop over all classes is the model of the elements of lists (`realOfString`), which so far was a simplification. `C146_tokens_partial` uses `load_string_full` (C141) for the blank equation. The two witnesses are computed with a sheet of five tokens.

Theorems: `C146_first`, `C146_refused`, `C146_number_partial`, `C146_real`, `C146_tokens_partial`, `C146_list_false`, `C146_matrix_false`.

False of lists: the text {1,2} becomes an equation, which is asked first. False of meaningless texts: one or two characters that nothing else reads become a matrix of one zero. Partial: for whatever constructors, the first class that accepts the text decides, and refusal by all gives ValueError and no change; numbers as in C94; tokenisable text becomes an equation unless its version is mistaken for its length. What graphed equations, databases, groups, pictures and settings do with a text is a parameter.

### C147 Each type ID has the class it belongs to, in whatever order the modules are imported

*proved*, `Props/Registry.lean`. `Registry` is a dict as a list in order of insertion; `C147_register`, `C147_place` and `C147_last` are inductions over it for arbitrary classes. The IDs under which the 28 class statements register are distinct (checked over the whole list by the kernel), so that every permutation of them gives the same lookups: `shippedIds` lists these separately, and `C147_order` shows that they are the table `Cls.getType` on which the rest of the model rests. `C147_values` justifies the two orders used elsewhere, `registered` (C146) and `realTypes` (C91); `C147_list` shows that the loop of `TIList.coerce` is the lookup in `coerceList`.

Theorems: `C147_register`, `C147_place`, `C147_last`, `C147_order`, `C147_values`, `C147_list`, `C147_own`, `C147_flash`.

### C148 Numbers of every kind come back from their files

*proved*, `Props/NumberFile.lean`. `KeepsImag` says that an action changes nothing but the real part; every step of loading the real part has it, whichever kinds are tried and refused, by induction over the registry. Setting the imaginary part makes class and type those of its subtype (`Agrees`), from `putImag_run` of C89. An entry that agrees is unchanged by the coercion on loading, and `save_open_coerced` of C142 brings it back. That the versions of these classes cannot be mistaken for the lengths 9 and 18 is checked over all of them; with other versions the file is misread (C23).

Theorems: `C148_real`, `C148_complex`, `C148_float`, `C148_assigned`.

### C149 Reading, writing and reading again gives the same entry

*partial*, `Props/Reload.lean`. `AllThere` and `Steady` speak of the bytes alone. `settles` goes through the coercions of all classes: most change nothing but the class, so that coercing the outcome in the first class is the same coercion again; complex and real numbers of undetermined kind compute the type from the data, which stays; equations of graph databases are treated separately. `loadBase_all` shows that bytes that are all there never give an entry whose flash bytes could be mistaken for its length, which is why no such condition is needed here. `loadBase_written` is the round trip of C23 without its condition on the archived flag.

Theorems: `C149_reload_partial`, `C149_file_partial`, `C149_reload_false`.

False of the code: a selected equation of a graph database becomes an ordinary one, a complex number with an imaginary part of unknown type an entry of no class, an entry whose data is cut off may lose its flash bytes, and a header length other than 11 and 13 is read and written differently. Partial: for all other bytes the second reading gives the same entry without warnings about the layout, also through files.

### C150 The text of a program, string or equation loads back as the same tokens

*partial*, `Props/Respell.lean`. `ReadIn` puts the specifications of C43 and C44 together. `encode_iff_reads` strengthens them to an equivalence: a text with a reading is never refused, because a reading that stops where no piece can be read must agree with any whole reading up to there (`Pieces.finish`, `SmartPieces.finish`), and by uniqueness the codes are those of this reading. `C150_exact` adds what `load_string` does around it - too long data raise `OverflowError` -, `C150_text_partial` decoding by C39 and the quotation marks of strings, and `C150_unmistakable_partial` a condition on the names alone.

Theorems: `C150_exact`, `C150_text_partial`, `C150_unmistakable_partial`, `C150_text_false`.

False of the code: adjacent tokens may spell another one, tokens in string literals are read minimally, and a string loses quotation marks at its ends. Partial: exactly the entries whose text reads as the same codes load back, among them all entries of tokens with unmistakable names. The text is assumed to be normalised already.

### C151 Reading, writing and reading again gives the same var

*partial*, `Props/VarReload.lean`. The pieces are those of `Cut` (C133), an inductive relation on the bytes alone. `loadLoop_pieces` follows the loop along it: each round appends the entry that the piece gives and changes nothing else, and `afterLoop_st` shows that the checks at the end change nothing. `reload_base` is C149 for new entries, with the warnings that only vars give excluded as well (`frameWarns`); with it every entry written loads as itself, and `load_framed`, the lemma behind C27, puts them together. The header is the padded start of the file, whose parts always have their widths.

Theorems: `C151_pieces`, `C151_reload_partial`, `C151_file_partial`, `C151_reload_false`.

What loading gives is proved in full. False of the code is that reading again gives the same: an equation of a graph database becomes an ordinary one, and an entry whose data is cut off at the end of the file may lose its flash bytes. Partial: for vars without a model whose pieces are all there and steady, and whose entries fit one file.

### C152 The header of a file can be read and reused on its own

*proved*, `Props/HeaderFile.lean`. `Hdr.openHeader` hands the whole file to the model of the constructor; `hdr_init_data` shows that, whatever the defaults store first, loading replaces all four parts, and `hdr_load_first` puts the four parts of the padded bytes together again. A header is determined by its bytes (`hdr_bytes_inj`, from `Hdr.load_bytes`), so that comparing with `C151_pieces` and with the bytes that were saved suffices; entries go through `C106_export_partial`.

Theorems: `C152_open`, `C152_var`, `C152_saved`, `C152_borrowed`, `C152_position`.

For entries the saving is without a model; parts of headers have their widths, as all headers that the library makes or loads.

### C153 The meta section that an entry reports is the one it writes

*partial*, `Props/HeaderFile.lean`. `rawMeta` is the slice of the written bytes, `metaSection` the concatenation in the code. Both are compared with the bytes of the entry; the lengths 13 and 11 show that they differ without flash bytes.

Theorems: `C153_raw`, `C153_meta_partial`, `C153_flashless_false`.

False of every entry without flash bytes: its meta section has version and archive flag although they are not written. Partial: entries with flash bytes; the raw container is proved in full.

### C154 A cleared var is an empty file with the same header

*proved*, `Props/HeaderFile.lean`. Evaluation of the models for a var without entries; loading goes through `load_framed` with no entries, whose warnings must then come from nowhere.

Theorems: `C154_clear`, `C154_truth`, `C154_empty`, `C154_position`.

## Where the code does not do what the property says

Found while proving. The theorem named proves the behaviour of the model with a concrete witness.

1. `TIEntry.load_bytes` (var.py:772) takes an entry for one without flash bytes when these repeat the data length: `C23_misfire_false`, `C27_var_roundtrip_false`, `C25_saveload_false`, `C26_reload_false`, `C77_misfire_false`.
2. `TIVar.add_entry` (`entry or TIEntry()`) replaces an entry without data by a new one: `C33_add_entry_false`.
3. `TIVar.__len__` is two short: `C29_len_false`.
4. `TIVar.extension` raises `KeyError` for models not listed: `C36_extension_false`.
5. `TIHeader.load_bytes` of a stream raises `AttributeError`: `C34_header_stream_false`. `min(*targets)` raises `TypeError` with one target: `C35_load_crash_false`; a var gets an incompatibility warning from its own header: `C35_load_warning_false`.
6. Vars of several entries without flash bytes report conflicting meta lengths that agree: `C68_meta_conflict_false`.
7. The checksum compared on loading is recomputed from the entries as loaded, so corrupt files may pass: `C30_corruption_false`.
8. `TIEntry(for_flash=False)` always raises `AttributeError`, so lists and matrices without flash bytes cannot be read: `C50_flashless_false`, `C52_flashless_false`.
9. Entries of type 0x23 change type and flags on loading: `C23_graphed_false`.
10. Bit fields store values modulo 256 without warning: `C04_bitfield_silent_loss_false`. Views cannot be written after their section was assigned: `C08_view_after_section_set_false`.
11. Left-nibble BCD fields accept 1000 to 9999 and overwrite the neighbour: `C12_nibble_overflow_false`; oversized date and revision components carry: `C14_date_false`, `C14_revision_false`.
12. `TIReal.load_string` misplaces the point after leading zeros ("01" is 0.1): `C16_leading_zeros_false`; an exponent out of range raises after the mantissa was written: `C19_failed_load_false`; floats are truncated: `C18_load_float_false`. "+-5" loads as 5.
13. `TIRealPi` loads "π" as zero: `C83_pi_false`; whole multiples of π print without π and do not reload: `C82_pi_text_false`.
14. Radicals: "0" raises `ValueError`, "0√5+3√2" raises; sections are written one after the other, so a failure leaves a mixture.
15. Setting the real or imaginary part of a complex number changes the number passed in (`C90_assigned_number_false`); the version of a complex entry is computed from bytes that include the sign bit (`C93_version_false`); `ComplexEntry.get_min_os` calls a model, which raises `TypeError`.
16. The version of lists and matrices is always zero: `C53_array_version_false`. Empty lists cannot be loaded or copied: `C51_empty_false`, `C77_empty_list_false`.
17. Groups: `C62_flashless_false`, `C62_list_false`, `C62_complex_false`, `C62_matrix_false`, `C62_name_false`, `C62_graphed_false`. Assigning group data that cannot be ungrouped raises after the length changed: `C26_raise_false`.
18. Images do not count their leading byte in the length: `C57_image_length_false`, `C26_image_false`. "Image0" cannot be set, and the tenth image reads as "Image10": `C71_image_name_false`.
19. `TIGraphedEquation`: `data` overlaps the length field, so that no assignment leaves a correct length (`C76_graphed_false`); a fresh one claims one token: `C61_fresh_false`. Databases do not update their length: `C60_length_false`. Style and colour of the second component of a pair are dropped: `C59_pair_false`. Mono databases longer than 61 bytes are classified as colour ones. `TISeqGDB.dict` reads "vnMin" from the wrong field and uses "seqMode".
20. `SettingsEntry.load_dict` iterates over keys and raises: `C72_dict_false`.
21. Versions 0x07 and 0x27 are computed but not recognised: `C47_recognised_false`. Clock tokens are matched as substrings of the bytes, also across token boundaries. Assigning empty data computes the version from the old data: `C69_empty_false`.
22. `lines` drops quotation marks and store arrows: `C48_lines_false`. Strings lose quotation marks at their ends: `C70_quotes_false`.
23. `TIAsmProgram` raises on coercion, so protecting and copying fail: `C49_asm_false`, `C77_asm_false`.
24. Name states of the encoder read one token more than documented: `C67_name_limit_false`.
25. Decoding drops trailing null bytes or a single byte that begins no token without a warning (C38 states the extent).
26. Flash: constructed headers have names of 31 bytes and never reload: `C64_new_false`, `C65_new_false`; headers with several devices or other names change: `C64_loaded_false`; the checksum flag is not set on reload: `C64_reload_false`; blocks without data cannot be serialised: `C63_empty_false`; data without records or with a final line end raise: `C74_empty_false`, `C74_line_end_false`.
27. `RGB565.set` accepts components above 255 and mixes the channels. White is in the palette twice. `TIPicture` drops an odd last pixel of a row.
28. `next_entry_length` at the end of a file moves the position backwards; loading still terminates (C31). `TIEntry.open` of files with several entries skips two bytes too many, so its warning is of another kind.
29. `TIMatrix.width` checks the product with the old height, giving a spurious warning.
30. `Flags.__ior__` with a bit beyond the width misplaces it.
31. Small numbers print as zero (`real.py:65-72`): the text is fixed to 14 decimals, so `10^-15` prints as `0` and every number with digits beyond the 14th decimal loses them on a round trip through text (C85).
32. Zero times pi prints as `0`, which `TIRealPi.load_string` refuses because it contains no pi (C86).
33. `TIRealRadical.load_string`: `0` and every text whose leading part is zero are refused (`C87_load_false`, `C88_reload_false`); the empty text loads as 1 (`C87_empty_false`); numbers from 1000 on are stored as other numbers without a warning: `1000√2` as `0√2`, `√2/1000` as `-√2/0`, `600√2+600√2` as `200√2` (`C87_large_false`). A sum without a root on its left and a signed denominator after a single summand are refused (`C87_refused` with `RadText.Loads`). `2(√3+1)` is read as `2√3+1`. The case `"-1"` of `reduce` in `__format__` never matches, so minus a root prints as `-1√13`.
34. `ComplexEntry.load_string` (complex.py:304-344): a bare unit with a minus sign loads as zero, since `-` is read as a number (`1-i` as 1-0i, `C91_load_false`); the sign of an exponent splits the number (`1e-5+2i` as 1-5i); `1+2` loads as 1+2i and `1+2+3i` as well; `i+1` is refused; the empty text raises `IndexError` (`C91_forms_false`). Since the real part is stored first, a refused imaginary part leaves the entry half loaded.
35. `ComplexEntry.__format__` (complex.py:134-158): with a fractional imaginary part the unit is inserted before `/`, so integers lose it: 3+2i prints as `3 + 2` and 2i as `2`; 3+i/2 prints as `3 + i/2`, which cannot be loaded (`C92_fraction_false`). 2-i prints as `2 - i`, which loads as 2-0i (`C92_reload_false`).
36. Text of real numbers (var.py:868-891): the first class whose parser lets the text through wins, so `2*3` becomes the radical 23, `~1/2` a radical, and `π` zero; `3pi/4` is refused although `2pi` is not (`C94_forms_false`).
37. `TIList.load_string` (list.py:183-184) and `TIMatrix.load_string` (matrix.py:178-180): the texts of the empty list and matrix load as a single zero, complex lists raise `IndexError`; `strip` removes the bracket of a final `[i]`; the outermost characters of the text of a matrix are dropped whatever they are (`C95_empty_false`, `C95_unit_false`, `C96_empty_false`).
38. Whole numbers held as fractions print without a denominator and fractions of pi that are whole print without pi: in a list, 3π (as a fraction) prints as `3` and loads as the ordinary number 3 (`C97_list_text_false`, `C98_matrix_text_false`).
39. `TIGraphedEquation` inherits `data` from sized entries, so its text starts with the upper byte of the length: `\x00` before every expression, with a warning (`C100_text_false`); loading the dictionary back puts a null byte into the tokens (`C100_reload_false`, `C102_tokens_false`).
40. `TIGraphedEquation.dict` leaves out the colour `Mono`, but `load_dict` asks for it: dictionaries of databases without colours raise `KeyError` (`C100_mono_false`, `C102_mono_false`).
41. `TIMonoSeqGDB._load_dict` tests for `seqSettings` and then reads `dct["seqMode"]`, which neither `dict` nor the library's own `json/seq.default.json` has: every dictionary of sequences raises `KeyError` (`C101_sequence_false`, `C102_sequence_false`). Its `dict` writes `vnMinp1` as `vnMin`.
42. A dictionary with `global84CSettings` makes a database without colours one with colours without making room: the colours overwrite the equations (`C101_colors_false`). A dictionary of another mode than that of the class leaves the data at the old size (`C101_mode_false`).
43. `dict` writes a grid of lines as `GridOff` (`C102_grid_false`), and a border colour of 0 loads as white, since the list of colours is indexed by -1 (`C102_border_false`).
44. By reading only: `TIGDB.__init__` sets the colours of axes and grid after loading its argument, overwriting them; the JSON defaults name `globalStyle` while the code reads `globalLineStyle`; the warnings about different styles of the components of a curve can never occur, since the components share them (in the model: `loadComponents_run`).
45. `RealEntry.get_min_os` (real.py:142-150) compares the first byte with the kinds of fractions without removing the sign bit: negative fractions are reported to run on the initial OS (`C103_real_false`).
46. `ComplexEntry.get_min_os` (complex.py:260-269) ends with `TI_83PCE()`, which calls a model: every complex number with a negative part (see 15) or a radical or pi raises `TypeError`, also from `supported_by`, from lists of complex numbers and from saving a var with a model (`C103_complex_false`, `C103_complex_list_false`, `C104_complex_false`).
47. Lists and matrices of radicals or multiples of pi are supported by every model, since only their version is looked at, which does not depend on the elements (`C104_list_false`, compare 16); `TIVar.supported_by` asks for the minimum OS only, so that a var is supported by models its entry is not supported by (`C104_var_false`).
48. Both compare with `<`, so that an entry needing exactly the latest OS of a model is not supported by it (stated in C104).
49. `TIVar.save` (var.py:1292-1293) opens the file for writing before it computes the bytes: if these cannot be computed, a file that was there is emptied, and the empty file opens as an empty var without any warning (`C105_failed_false`).
50. `save` asks whether `"."` is in the whole path, so `../A` or `dir.d/A` gets no extension (`C105_name_false`).
51. `save` warns if the minimum OS is greater than the latest of the model, `supported_by` wants it smaller: entries needing exactly the latest OS are unsupported but saved without a warning (`C105_boundary_false`); the same goes for radicals (`C105_exact_false`).
52. `TIEntry.open` skips two bytes behind the first entry for the checksum, which in files of several entries are the meta length of the second; so the warning about several entries depends on the length of the data of the second (`C106_several_false`, compare 28). An entry without data is exported as another one (`C106_export_false`). Black and white pictures have the empty extension for the TI-84+CSE, so that `TIMonoPicture.open` accepts every file name silently (by reading).
53. `TIEntry.__format__` applies `upper()` or `lower()` to the separators too: `{entry:xT}` separates with `t` and `{entry:Xb}` with `B`, a digit (`C107_separator_false`). The README gives the order as separator, width, `x`, while the code wants width, `x`, separator, and says that the width counts digits, while it counts bytes.
54. For tokenized entries `{entry:x:}` or `{entry:2x:}` is taken as a format for line numbers, so that the tokens with hexadecimal line numbers come out instead of the bytes; only `X` works, and only that is tested (`C108_hex_false`).
55. Illegal bytes have a name in English only: a tokenized entry with one cannot be formatted in any other language, the error being an unsupported format string (`C108_language_false`). A language of one letter after a kind, such as `d.e`, is read as a line format with the separator `.`.
56. Text for typing (`format(number, "t")`) has `n/d` for the bar of fractions, which `load_string` does not know: every number with a denominator, alone or in a list or matrix, gives text that is refused (`C109_refused`, `C110_list_refused`, `C110_matrix_refused`).
57. Text for typing of complex numbers uses `~` for the sign between the parts, but `load_string` separates parts at `+` and `-` only: `1~2[i]` is refused, and an existing number has lost its real part by then (`C109_complex_refused`). The replacements for `/` and roots are made for real numbers only, so exact parts of complex numbers keep `/` and `√` (by reading, complex.py:160-163). The `f` put in place of the `t` makes `{number:xt}` hexadecimal text with the separator `f` (by reading, real.py:75-83).
58. Lists strip all brackets from both ends, so that `{2+[i]}` becomes `2+[i`, which is refused: a list of complex numbers for typing cannot be loaded unless the last one is real (`C110_complex_refused`).
59. `load_dict` looks up format settings in `GraphMode`, which also has the settings of expressions, sequences and asymptotes with the numbers of bits of other bytes: `ExprOff` or `DetectAsymptotesOff` among the format settings make the curves dotted, `SEQ_np1` makes them drawn simultaneously, without a warning (`C111_flags_false`, `C111_forms_false`). By reading: `hasattr(self, var)` also lets through every attribute of the class, so that `{"name": …}` or an equation among the numbers is assigned to.
60. A `null` graph mode with settings of sequences raises `AttributeError` in the warning about them (`C111_null`).
61. `load` never accepts a file: `isinstance(file, typing.BinaryIO)` is false for everything `open` returns (`C112_file_false`).
62. `@Loader[Sequence[TIToken]]` (tokenized.py:180) makes `isinstance` raise `TypeError`, which `load` reports as an unsupported type: sequences of tokens cannot be loaded through `load` or a constructor (`C112_tokens_false`), and what comes behind it in the table cannot either, which hits equations for graphed equations (`C112_equation_false`).
63. The loaders of `TIRealPiFraction` are those of its first base, so that `load(Fraction(1, 2))` is refused although `load_fraction` is inherited (`C112_fraction_false`; real.py:655, data.py:563).
64. `TIGraphedEquation.__init__` sets flags, style and colour after loading its argument: those of a dictionary are overwritten (`C113_dict_false`). The bytes of a `TIEquation` are loaded without making room for the flags, which then overwrite the first byte of the length (`C113_equation_false`). Style and colour are no part of `bytes()`: copies lose them and still compare equal (`C113_copy_false`).
65. `TIRealRadical.decimal` rounds the two roots before adding: (-√18 + 3√2)/1, which is zero, has the decimal value -1E-27 and the sign -1 (`C114_zero_false`).
66. `-radical` flips the sign bit, which radicals do not use: the result has the same value and text as the radical, but is not equal to it (`C115_radical_false`).
67. The Pillow plugin for `.8ca` cannot open any file that it saves: the length of an image is written as one less than what is read (see 18), and `_open` turns the warning about that into an error (`C116_image_false`; PIL/common.py:41, picture.py:395).
68. The Pillow plugins reshape the pixels without looking at the size: an image of 63 by 96 pixels is saved as one of 96 by 63, with its pixels in the wrong places (`C116_size_false`; PIL/common.py:110).
69. `@total_ordering` does nothing for `Flags`: `dict` has all four comparison methods already, so that `<=` and `>=` are not filled in and raise `TypeError` (`C117_flags_false`; flags.py:73).
70. Updates of flags do not reduce the values to bits as the constructor does: after `flags |= {3: 2}` the number of the flags raises `ValueError`, and they cannot be stored (`C117_update_false`; flags.py:97, 103).
71. Two models that share a place in the chronology are each greater than the other and neither less nor equal, since `==` goes by names and `>=` by places (`C117_models_shared`; model.py:41-45).
72. `TIComplex.load_complex` makes new parts of the kinds the entry has, so that a `TIComplex` whose real part is a radical or a multiple of pi refuses every complex number with `NotImplementedError` (`TypeError` through `load`) instead of "upcasting as necessary" (`C118_exact_false`; complex.py:369).
73. `int(number)` goes through `float`: the whole number 12345678901234E10 becomes 123456789012339998326784 (`C119_int_false`; real.py:86).
74. `json_number` returns a float where its text is short, and `load_float` cuts the exact value of that float off after 14 digits instead of reading its text: 0.3 comes back as 0.29999999999999, and a graph database with such a number in its window changes each time it goes through JSON (`C120_false`, `C120_gdb_false`; real.py:182-193, gdb.py:683).
75. `TIGDB.__init__` sets the colours of grid and axes after loading its argument: a `TIGDB` made from an entry, a dictionary or `data` always has a medium grey grid and black axes (`C121_colors_false`; gdb.py:734-735).
76. The constructor given an entry computes the version anew, but if `version=` is given it keeps the one of the entry and ignores the argument, as it does `name=` and `archived=` (`C121_version_false`; var.py:383, 389).
77. `mono()` cuts the colours off the bytes of the entry without adjusting any of the three lengths in them: the result always comes with two warnings, and its length field counts 18, 14 or 11 bytes too many (`C122_length_false`; gdb.py:969, 1151, 1287, 1535).
78. A monochrome graph database of more than 61 bytes, as all real ones are, is loaded from a file as one of the colour class with the same mode, since the class it is loaded as first counts no equations; so a var with one is not equal to its copy (`C27_mono_false`, `C123_mono_false`; gdb.py:521, 559, 697).
79. `copy.copy` of a var is named `UNNAMED` and has no model, whatever the var had (`C123_name_false`; var.py:1032).
80. `header | []` raises `IndexError` (`C124_empty_false`; var.py:120).
81. Vars made from one header share it: loading a file into one changes the header of the others, also if the loading fails, so that saving those writes the header of that file (`C124_shared_false`; var.py:1000, 1202).
82. A text with JSON that is no dictionary, such as `[1, 2]`, empties a graph database before `AttributeError` is raised (`C125_emptied_false`; gdb.py:598-604).
83. The text of settings can never be loaded, and neither can a list of pairs as which `load_dict` reads its argument: `GraphRealEntry(value)` has no loader for numbers or texts (`C125_settings_false`, `C125_pairs_false`; settings.py:41-46).
84. The default dictionaries that `load_dict()` reads can be loaded into function, parametric and polar databases with colours only: every sequence database raises `KeyError` (`C126_sequence_false`, see 41), a database without colours gets `84C` written over its fifth equation and the class with colours (`C126_mono_false`), and the base classes raise `AttributeError` after clearing (`C126_base_false`). The key `globalStyle` of the defaults is not the `globalLineStyle` that is looked for (by reading; without effect, since `Thick` is zero).
85. Fractions and multiples of pi in the window of a graph database become plain numbers in its dictionary: 2π comes back as 6.2831853071796 (`C120_kind_false`).
86. `TIFlashHeader.extension` tests and uses `model` where `min_model` is meant: any model that is not listed gets the extension of the TI-84 Plus CE and a warning that it does not support the type. An app for the TI-84 Plus becomes `8ek` instead of `8xk` (`C127_default`, `C127_extension_false`; flash.py:627-629). The same slip makes `TIVar.extension` raise, see C36.
87. A new flash header that is saved and opened again has lost its data, its device and its type (`C127_new_false`), and saving a header without data empties the file before it fails (`C127_emptied_false`; flash.py:790-791).
88. Nothing can be assigned to `device_type`, `type_id`, `data` and `license` of flash headers: the sections hold `bytes`, so that assigning to a part of them always raises `TypeError` (`C128_assign_false`; data.py:489-490).
89. After assigning `name` to a flash header that was loaded, its bytes are no longer those of a header: the name is padded to 31 bytes and 23 more follow (`C128_name_false`; flash.py:395-396, 496).
90. No dictionary of a database with colours conforms to `gdb.schema.json`: the code writes and reads `globalLineStyle` where the schema and the default dictionaries have `globalStyle`, and the schema allows no other keys there (`C129_color_false`; gdb.py:787, 803). A text with `"globalStyle": "Thin"` conforms and loads as `Thick` without a warning (`C129_line_false`).
91. The schema has no `VertWeb` although the library writes it (`C129_vertweb_false`; gdb.py:56), and no `null`, which the library writes for a mode, style or colour without a name (`C129_style_false`).
92. The schema has defaults for everything and requires nothing, but an equation without `style`, `color`, `flags` or `expr` raises `KeyError` (`C129_load_false`; gdb.py:294-303).
93. `format(z, ".2t")` of a complex number is `1.00~2.50j`: the code replaces `i` by `[i]`, but with decimals the text comes from Python's `complex`, which writes `j` (`C130_complex_false`; complex.py:161-166). The letter cannot be typed on a calculator; for lists of complex numbers likewise.
94. A list named `L1` to `L6` is not the built-in list: `ListName.set` calls `super().set(varname)` without the instance, so that the shortest names are read and `L1` becomes the letters `L` and `1` (`C132_builtin_false`; list.py:68, tokenizer/__init__.py:44). With the instance the longest names would be read. This also holds for the default name of new lists (`C135_default_false`).
95. `ListName.get` drops the byte `5D` before names of users and `ListName.set` does not put it back: `lst.name = lst.name` changes `5D 5A` to `5A` (`C132_custom_false`; list.py:44, 68).
96. `IDList` can be read but not assigned: `"IDList" in varname` is asked after `upper()`, so it never holds (`C132_idlist_false`; list.py:58-60).
97. A name of nine bytes that ends in a zero byte is cut without a warning, because zeros are stripped before the width is checked; the last token is then incomplete (`C131_long`; tokenizer/__init__.py:45). An example is a matrix called `[A]A[A][A][A]`; no name that a calculator accepts is affected.
98. Some damaged entries raise although damage is otherwise reported by warnings (`C133_load_false`): a list with fewer than three bytes of data raises `IndexError` - this includes a list of no elements as `TIRealList([])` saves it -, a complex number with fewer than ten bytes `ValueError`, a flash header with fewer than 17 bytes `IndexError` and with fewer than 50 `ValueError`. A var with one such entry does not load at all, and the entry loaded into has been overwritten when the exception is raised.
99. An existing file of fewer than two bytes cannot be opened as an entry and one of fewer than 78 bytes not as a flash header: stepping back before the start of a file raises `OSError` (`C134_open_false`; var.py:638, flash.py:602). The same bytes in a `BytesIO` load with a warning, and an empty file opens as a `TIVar`.
100. A program that merely mentions a mark of compiled code, for instance in a string, is taken for an assembly program, because the bytes are looked for anywhere in the data although the documentation of `TIAsmProgram` speaks of the start (`C136_anywhere_false`; tokenized.py:430). Such a program can then neither be protected nor unprotected (`C49_asm_false`), and loading bytes into it again raises (`C133_load_false`).
101. The index of names of a container of tokens lets a later language take over an English name of another token without a warning (`C137_names_false`; trie.py:99-100, where a comment says there will probably be no clashes). A single token without a name in one of the languages makes the container, and thus the import of the package, fail with `ValueError` (`C137_new`; trie.py:27-28).
102. `TIGraphedEquation.equation` goes through the bytes of the entry and so inherits the guess about flash: if version and archive flag read as the length of the data, the equation taken out has no flash bytes and its data begin two bytes early (`C138_equation_false`; gdb.py:342-350). Slicing `calc_data[1:]` would not.
103. `list()`, `matrix()` and iteration never look at the length of a list or the number of rows of a matrix: `len(list(lst)) != lst.length` and `len(list(m)) != m.size` for damaged entries (`C140_length_false`; list.py:174-180, matrix.py:168-175). A matrix without columns has no elements whatever its data.
104. A short program can be destroyed by saving it: the version computed from its newest token is then the length of the entry, the file is taken for one without flash bytes, and the program read back begins two bytes early and has lost its end (`C141_flash_false`). With a token of OS 5.3 (version 12; `eval(` in the sample sheet) this happens to every program of ten bytes, with tokens of OS 2.53 (version 6) to every program of four bytes, and with a clock token, which adds 32 to the version, to programs of one length between 30 and 42 bytes. Unarchived programs of 43 bytes and more are safe (`C141_long`).
105. A group of 32766 bytes (more exactly, of 32766 plus its version) cannot be opened again correctly: groups are always archived, the flash bytes read as 32768 plus the version, and this is then the length of the entry, so that the file is taken for one without flash bytes (`C143_length_false`; group.py:42 with var.py:772-778). The data read back begin with the length field instead of the first type.
106. The checks of the number of elements of a list and a matrix divide the length of the whole entry by the length of an element and so count the two bytes of the length field as data (`C144_stray_false`; list.py:158, matrix.py:140): a list that says two elements but has one and seven stray bytes loads silently.
107. A graph database filled from a dictionary or from JSON has the length field of an empty one (`load_dict` clears the entry and no assignment of equations adjusts `length`), so that every such database with an equation opens with a warning about its length (`C145_length_false`; gdb.py:590-694; see also finding 77).
108. `TIEntry("{1,2}")` is an equation, not a list, and likewise for every list and matrix that the token sheet can spell, because equations are registered and so tried before lists and matrices (`C146_list_false`; var.py:881-891, gdb.py:17-18, group.py:13-16). A text of one or two characters that no other class reads becomes a matrix of one zero instead of being refused, because `TIMatrix.load_string` drops the outermost characters unseen and reads nothing as zero (`C146_matrix_false`; matrix.py:178-180).
109. Damaged files do not always settle after being read once (`C149_reload_false`): an entry that promises data but has none (and version and flag zero) is written with the length zero and then taken for one without flash bytes; a header length such as 12 is kept, but two flash bytes are read and only one is written, so that each reading shifts the data by one byte (var.py:317-324, 757-770); an equation of type 0x23 opened as `TIEntry` is written with type 3 and is an ordinary equation the next time, its flag byte read as the low byte of the length (gdb.py:358-361). The same happens to such entries in files opened as `TIVar` (`C151_reload_false`).
110. The text of a program does not determine its tokens (`C150_text_false`): single letters that together spell a command become that command when the text is loaded again, and a command inside a string literal, which a calculator allows, becomes its letters. The text looks the same, but data and length differ, and nothing warns. A string that ends in a quotation mark, which a calculator cannot type but a file can contain, loses it.
111. `entry.meta` and `entry.raw.meta` disagree for every entry without flash bytes: the first always appends version and archive flag and so has 13 bytes although `meta_length` is 11 (`C153_flashless_false`; var.py:608-614 against 326-332).

## Axioms per theorem

**Classical.choice, Quot.sound, propext**: `C01_integer_section`, `C03_bitfield_write`, `C03_bitfield_readback`, `C04_bitfield_silent_loss_partial`, `C05_string_section`, `C06_header_history`, `C06_entry_history`, `C07_view_write`, `C07_view_frame`, `C07_view_commute`, `C09_flags_update`, `C10_flags_roundtrip`, `C11_bcd_field`, `C11_bcd_readback`, `C12_left_nibble_partial`, `C12_right_nibble`, `C12_left_nibble_reject_partial`, `C13_radical_write`, `C13_radical_history`, `C14_date_partial`, `C14_revision_partial`, `C14_revision_false`, `C15_load_decimal`, `C16_leading_zeros_partial`, `C16_divided`, `C17_reload`, `C17_reload_decimal`, `C17_reload_zero`, `C17_decimal_exact`, `C18_load_float_false`, `C18_load_float_partial`, `C18_truncated`, `C19_failed_load_false`, `C19_failed_load_partial`, `C20_negation`, `C21_fraction`, `C21_sharp`, `C22_entry_length`, `C23_entry_roundtrip_partial`, `C23_entry_typed_partial`, `C23_misfire_false`, `C23_graphed_false`, `C24_load_total`, `C24_load_base`, `C25_archive`, `C25_saveload_partial`, `C25_saveload_false`, `C26_sized_in_step_partial`, `C26_image_false`, `C26_reload_false`, `C26_raise_false`, `C76_graphed_false`, `C27_var_roundtrip_partial`, `C27_exact`, `C27_var_roundtrip_false`, `C27_mono_false`, `C28_framing`, `C29_len_false`, `C29_len_partial`, `C30_checksum`, `C30_mismatch_partial`, `C30_corruption_false`, `C31_load_terminates`, `C32_offset`, `C33_add_entry_false`, `C34_header_stream_false`, `C35_header_targets`, `C35_targets_spec`, `C35_load_partial`, `C35_load_crash_false`, `C35_load_warning_false`, `C36_extension_partial`, `C36_extension_false`, `C36_extension_witness_false`, `C37_trie_match`, `C38_decode_bytes`, `C39_decode_concat`, `C40_encode_pieces`, `C40_encode_error`, `C41_encode_terminates`, `C42_stack_never_empty`, `C42_stack_shape`, `C43_max_munch`, `C43_min_munch`, `C43_munch_unique`, `C44_smart_mode`, `C44_smart_unique`, `C45_escape_text`, `C46_encode_since`, `C47_recognised_partial`, `C47_recognised_false`, `C48_lines_partial`, `C48_lines_false`, `C49_protect_partial`, `C49_data_untouched`, `C49_asm_false`, `C49_becomes_asm_false`, `C50_list_store`, `C50_list_read_partial`, `C50_flashless_false`, `C51_list_loads_partial`, `C51_empty_false`, `C52_matrix_store`, `C52_matrix_read_partial`, `C52_flashless_false`, `C53_array_version_false`, `C53_array_version_partial`, `C54_rgb565`, `C54_palette`, `C55_nearest`, `C56_mono`, `C56_mono_uneven`, `C56_picture`, `C56_image`, `C57_image_length_false`, `C57_image_length_partial`, `C58_write`, `C58_refused`, `C58_history`, `C58_read`, `C58_number`, `C59_read`, `C59_replace`, `C59_equations_partial`, `C59_pair_false`, `C60_length_false`, `C60_length_partial`, `C61_fresh_partial`, `C62_group_partial`, `C62_flashless_false`, `C62_list_false`, `C62_complex_false`, `C62_matrix_false`, `C62_name_false`, `C62_graphed_false`, `C63_block_partial`, `C63_checksum`, `C63_short`, `C64_load_partial`, `C64_roundtrip_partial`, `C64_exact`, `C64_len`, `C64_short`, `C64_new_false`, `C64_reload_false`, `C65_next_partial`, `C65_offset_partial`, `C65_end`, `C65_open_partial`, `C66_load_string_terminates`, `C67_name_limit_false`, `C67_name_limit_partial`, `C68_meta_conflict_partial`, `C68_meta_conflict_false`, `C69_load_tokens_partial`, `C69_empty_false`, `C70_load_string_partial`, `C70_codes`, `C70_literal_false`, `C70_quotes_false`, `C71_image_name_false`, `C71_image_name_partial`, `C71_image_name_default`, `C72_dict_false`, `C72_dict_partial`, `C73_number`, `C73_equation`, `C74_blocks_partial`, `C74_line_end_false`, `C75_blank`, `C76_assign_partial`, `C76_too_long`, `C76_complex_short`, `C76_graphed_too_long`, `C77_copy_partial`, `C77_asm_false`, `C77_empty_list_false`, `C77_misfire_false`, `C77_class_false`, `C78_rounding`, `C79_text`, `C79_ratio`, `C79_zero`, `C79_decimal`, `C79_float`, `C80_text_roundtrip`, `C81_pi_fraction`, `C81_sharp`, `C82_pi_text_partial`, `C82_pi_text_false`, `C83_pi_partial`, `C84_text`, `C85_reload_partial`, `C85_reload_zero`, `C86_pi_text_partial`, `C87_load_partial`, `C87_refused`, `C87_large_false`, `C87_empty_false`, `C88_text`, `C88_reload_partial`, `C88_value_partial`, `C88_reload_false`, `C89_set_real`, `C89_set_imag`, `C89_value`, `C90_assigned_number_partial`, `C91_load_partial`, `C91_kinds_partial`, `C91_other_kind`, `C91_no_kind`, `C91_load_false`, `C91_forms_false`, `C92_reload_partial`, `C92_reload_false`, `C92_fraction_false`, `C93_version_partial`, `C93_version_bit`, `C93_version_false`, `C94_element_partial`, `C94_refused`, `C94_forms_false`, `C95_list_load_partial`, `C95_first_error`, `C95_numbers`, `C95_list_refused`, `C95_complex`, `C95_unit_false`, `C95_empty_false`, `C96_matrix_load_partial`, `C96_numbers`, `C96_ragged`, `C96_refused`, `C96_empty_false`, `C97_list_text_partial`, `C97_complex_text_partial`, `C97_list_text_false`, `C97_unknown`, `C98_matrix_text_partial`, `C98_matrix_text_false`, `C99_load`, `C99_refused`, `C100_reload_partial`, `C100_text_false`, `C100_reload_false`, `C100_mono_false`, `C101_load_partial`, `C101_sequence_false`, `C101_colors_false`, `C101_mode_false`, `C102_reload_partial`, `C102_mono_false`, `C102_tokens_false`, `C102_grid_false`, `C102_border_false`, `C102_sequence_false`, `C103_real_partial`, `C103_real_false`, `C103_complex_partial`, `C103_complex_false`, `C103_list_partial`, `C103_complex_list_partial`, `C103_complex_list_false`, `C103_tokens`, `C103_asm`, `C103_group`, `C103_gdb_partial`, `C103_class`, `C104_real`, `C104_other`, `C104_list_false`, `C104_complex_partial`, `C104_complex_false`, `C104_complex_list_partial`, `C104_complex_list_false`, `C104_var`, `C104_var_partial`, `C104_var_false`, `C105_save_open_partial`, `C105_failed_false`, `C105_warnings`, `C105_boundary_false`, `C105_exact_false`, `C105_name_partial`, `C105_name_false`, `C106_export_partial`, `C106_export_false`, `C106_first`, `C106_save_open_partial`, `C106_several_false`, `C107_hex`, `C107_back`, `C107_fromhex`, `C107_range`, `C107_separator_false`, `C108_tokens`, `C108_lines`, `C108_language`, `C108_number_refused`, `C108_hex_partial`, `C108_hex_false`, `C108_language_false`, `C109_text`, `C109_reload_partial`, `C109_refused`, `C109_reload_false`, `C109_complex_text`, `C109_complex_partial`, `C109_complex_refused`, `C110_list_partial`, `C110_list_refused`, `C110_matrix_partial`, `C110_matrix_refused`, `C110_complex_partial`, `C110_complex_refused`, `C110_reload_false`, `C111_unknown`, `C111_load`, `C111_sequence`, `C111_sequence_unknown`, `C111_null`, `C111_flags_false`, `C111_forms_false`, `C113_text_partial`, `C113_dict_false`, `C113_equation_false`, `C113_copy_false`, `C114_value_partial`, `C114_sign_partial`, `C114_zero_false`, `C115_negate_partial`, `C115_radical_false`, `C116_mono_partial`, `C116_picture_partial`, `C116_image_false`, `C116_size_false`, `C116_refused`, `C117_new`, `C117_flags_partial`, `C117_update_false`, `C118_load_partial`, `C118_other_parts`, `C118_refused`, `C118_exact_false`, `C119_float`, `C119_float_decimal`, `C119_int_partial`, `C119_int_false`, `C119_complex`, `C120_reload_partial`, `C120_close`, `C120_whole`, `C120_false`, `C120_gdb_partial`, `C120_gdb_false`, `C120_kind_false`, `C121_init_partial`, `C121_gdb_partial`, `C121_colors_false`, `C121_version_false`, `C122_mono_partial`, `C122_length_false`, `C123_header`, `C123_copy_partial`, `C123_eq`, `C123_name_false`, `C123_mono_false`, `C124_join_partial`, `C124_separate`, `C124_empty_false`, `C124_falsy_false`, `C124_shared_false`, `C125_json`, `C125_read`, `C125_text`, `C125_back_partial`, `C125_invalid`, `C125_emptied`, `C125_emptied_false`, `C125_settings_false`, `C125_pairs_false`, `C126_load_partial`, `C126_null_partial`, `C126_sequence_false`, `C126_mono_false`, `C126_base_false`, `C127_extension_partial`, `C127_default`, `C127_extension_false`, `C127_save_open_partial`, `C127_missing`, `C127_emptied_false`, `C127_new_false`, `C128_read`, `C128_assign_false`, `C128_name_partial`, `C128_name_false`, `C129_dict_partial`, `C129_color_false`, `C129_style_false`, `C129_vertweb_false`, `C129_default`, `C129_read`, `C129_load_partial`, `C129_load_false`, `C129_line_false`, `C130_real`, `C130_stored_partial`, `C130_list`, `C130_matrix`, `C130_complex`, `C130_complex_false`, `C131_stored`, `C131_long`, `C131_error`, `C131_spelled`, `C131_again`, `C131_settings`, `C132_stored_partial`, `C132_builtin_read`, `C132_builtin_false`, `C132_custom_false`, `C132_idlist_false`, `C133_entry_partial`, `C133_var_partial`, `C133_flash_partial`, `C133_load_false`, `C134_entry_partial`, `C134_var_partial`, `C134_flash_partial`, `C134_open_false`, `C135_named`, `C135_default_partial`, `C135_default_false`, `C136_class_partial`, `C136_text`, `C136_anywhere_false`, `C137_new`, `C137_codes`, `C137_names_partial`, `C137_names_false`, `C137_tries`, `C138_equation_partial`, `C138_inverse`, `C138_equation_false`, `C139_picture`, `C139_image`, `C139_mono_written`, `C139_picture_written`, `C139_image_written`, `C140_list_partial`, `C140_matrix_partial`, `C140_length_false`, `C141_text_partial`, `C141_long`, `C141_flash_false`, `C142_real`, `C142_zero`, `C142_list_partial`, `C142_matrix`, `C142_mono`, `C142_picture`, `C142_image`, `C142_empty_false`, `C143_group_partial`, `C143_length_false`, `C144_open`, `C144_quiet_partial`, `C144_assigned_partial`, `C144_stray_false`, `C145_file_partial`, `C145_length_false`, `C146_first`, `C146_refused`, `C146_number_partial`, `C146_real`, `C146_tokens_partial`, `C146_list_false`, `C146_matrix_false`, `C148_real`, `C148_complex`, `C148_float`, `C148_assigned`, `C149_reload_partial`, `C149_file_partial`, `C149_reload_false`, `C150_exact`, `C150_text_partial`, `C150_unmistakable_partial`, `C150_text_false`, `C151_pieces`, `C151_reload_partial`, `C151_file_partial`, `C151_reload_false`, `C152_open`, `C152_var`, `C152_saved`, `C152_borrowed`, `C152_position`, `C153_raw`, `C153_meta_partial`, `C153_flashless_false`, `C154_truth`, `C154_empty`, `C154_position`.

**Quot.sound, propext**: `C01_integer_readback`, `C02_boolean_section`, `C06_section_width`, `C07_view_length`, `C08_view_after_section_set_false`, `C08_view_after_section_set_partial`, `C12_nibble_overflow_false`, `C14_date_false`, `C16_leading_zeros_false`, `C33_add_entry_partial`, `C34_header_roundtrip_partial`, `C45_escape_anywhere`, `C46_decode_since`, `C47_version_monotone`, `C52_ragged`, `C54_l1`, `C54_l1_pixels`, `C63_empty_false`, `C65_new_false`, `C70_load_string_error`, `C87_load_false`, `C107_refused`, `C112_load_partial`, `C112_unwanted`, `C112_wanted`, `C112_file_false`, `C112_tokens_false`, `C112_equation_false`, `C112_fraction_false`, `C117_number`, `C117_models`, `C117_models_shared`, `C128_devices`, `C139_mono`, `C147_order`, `C147_list`, `C147_flash`.

**none**: `C147_values`, `C147_own`.

**propext**: `C04_bitfield_silent_loss_false`, `C41_empty_name_loops`, `C61_fresh_false`, `C64_loaded_false`, `C74_empty_false`, `C83_pi_false`, `C85_reload_false`, `C86_pi_text_false`, `C90_assigned_number_false`, `C104_features`, `C114_denominator`, `C117_flags_false`, `C130_error`, `C147_register`, `C147_place`, `C147_last`, `C154_clear`.

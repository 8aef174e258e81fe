{"id": "C01", "title": "Integer sections round-trip or overflow", "statement": "Assigning an integer n to an integer field of w bytes stores w little-endian bytes that read back as exactly n when 0 <= n < 256^w, and raises OverflowError (storing nothing) otherwise; conversely re-assigning the value read from any w bytes reproduces those bytes.", "quantifier": "every width w, every integer n (negative and oversized included), every byte string", "why_tests_cant": "The value space is infinite in w and exponential for fixed w; tests sample a few lengths and values.", "anchors": ["tivars/data.py:Integer.get", "tivars/data.py:Integer.set"]}
{"id": "C02", "title": "Boolean sections round-trip and normalise", "statement": "Assigning a truth value to a boolean field stores 0x80 or 0x00 and reads back as the same truth value; reading treats any byte string other than the single byte 00 as true.", "quantifier": "both truth values, every stored byte string", "why_tests_cant": "Includes every possible stored content, also foreign nonzero flags no fixture contains.", "anchors": ["tivars/data.py:Boolean.get", "tivars/data.py:Boolean.set"]}
{"id": "C03", "title": "Bit-field writes are exact and leave the other bits alone", "statement": "Writing v through a bit-field covering k bits of a byte makes the field read v mod 2^k when 0 <= v < 256, never changes a bit outside the field, and warns exactly when v does not fit in k bits; reading then re-writing the read value is the identity on the byte.", "quantifier": "every slice (start, stop, step) of the eight bit positions, every current byte, every integer value", "why_tests_cant": "All slices x all bytes x all values; the tests read a few bit-fields of sample entries.", "anchors": ["tivars/data.py:Bits.__class_getitem__.BitSlice.get", "tivars/data.py:Bits.__class_getitem__.BitSlice.set"]}
{"id": "C04", "title": "A bit-field never silently drops part of an oversized value", "statement": "Whenever a value written through a bit-field does not read back unchanged, a warning is emitted.", "quantifier": "every slice of a byte, every current byte, every integer value including values >= 256 and negatives", "why_tests_cant": "A silent truncation for out-of-byte values is invisible to tests that only write small values.", "anchors": ["tivars/data.py:Bits.__class_getitem__.BitSlice.set"]}
{"id": "C05", "title": "Latin-1 string sections round-trip up to NUL padding and width", "statement": "Assigning a latin-1 string to a string field of width w always stores exactly w bytes; reading gives back the first w characters with trailing NULs removed, a truncation warning is emitted exactly when the string is longer than w, and a string with a character above U+00FF raises UnicodeEncodeError and stores nothing.", "quantifier": "every string, every width", "why_tests_cant": "Unbounded strings and every width; padding and truncation corner cases.", "anchors": ["tivars/data.py:String", "tivars/data.py:Section._set_raw"]}
{"id": "C06", "title": "Fixed-width sections keep their width under every assignment history", "statement": "After any sequence of (successful or failing) assignments to the sections of an object, each fixed-width section still holds exactly its declared number of bytes, so a header always serialises to exactly 53 bytes.", "quantifier": "every sequence of assignments of arbitrary values to header sections", "why_tests_cant": "Quantifies over histories of operations of any length.", "anchors": ["tivars/data.py:Section.__set__", "tivars/data.py:Section._set_raw", "tivars/var.py:TIHeader"]}
{"id": "C07", "title": "View writes are local", "statement": "Writing through a fixed-width view [a:b] of a mutable buffer at least b bytes long keeps the buffer length, makes the view read back the written (padded or truncated) bytes, and changes no byte outside [a, b); hence writes through views with disjoint ranges commute and do not disturb each other.", "quantifier": "every buffer, every in-range slice, every written byte string", "why_tests_cant": "Frame conditions quantify over every position outside the slice and every buffer.", "anchors": ["tivars/data.py:Section.__get__", "tivars/data.py:View.__set__", "tivars/data.py:View.__init__"]}
{"id": "C08", "title": "Views remain writable after a section was assigned as a whole", "statement": "After assigning a byte string to the section underlying some views (for example the whole calc data), writing through those views works just as before the assignment.", "quantifier": "every section content and every later view write", "why_tests_cant": "Depends on the order of two API calls and on the type of the value that is assigned, for all contents.", "anchors": ["tivars/data.py:Section._set_raw", "tivars/data.py:Section._set_raw", "tivars/data.py:Bytes.set"]}
{"id": "C09", "title": "Flag updates set what was asked and nothing else", "statement": "After updating a flag set with a subset assignment S of its bits, S is contained in the flag set, every bit not mentioned by S keeps its value, and the integer value has exactly those bits.", "quantifier": "every flag width, every current flag value, every update S within the width", "why_tests_cant": "Exponentially many flag states and updates.", "anchors": ["tivars/flags.py:Flags"]}
{"id": "C10", "title": "Flag bytes round-trip", "statement": "Reading any flag byte and writing it back reproduces the byte, and for wider sections it reproduces the bytes once the section pads them; bit i of the flags is bit i of the little-endian integer.", "quantifier": "every byte string", "why_tests_cant": "All byte strings of every length.", "anchors": ["tivars/flags.py:Flags.get", "tivars/flags.py:Flags.set"]}
{"id": "C11", "title": "BCD fields round-trip and reject what does not fit", "statement": "Writing an integer v to a w-byte BCD field succeeds exactly when 0 <= v < 100^w, every stored nibble is a decimal digit, and reading gives back v; a byte string whose nibbles are all decimal digits survives read-then-write.", "quantifier": "every width, every integer, every digit-only byte string", "why_tests_cant": "Infinite families of values and widths.", "anchors": ["tivars/numeric.py:BCD.get", "tivars/numeric.py:BCD.set"]}
{"id": "C12", "title": "Nibble-aligned BCD fields round-trip three digits and keep the foreign nibble", "statement": "Writing v with 0 <= v <= 999 through a left- or right-aligned nibble BCD view makes it read v and leaves the nibble that belongs to the neighbouring field unchanged; anything larger than 999 is rejected with an exception rather than stored.", "quantifier": "every current content of the two bytes, every value", "why_tests_cant": "All bytes times all values; overflow into a neighbouring nibble only shows with specific combinations.", "anchors": ["tivars/numeric.py:LeftNibbleBCD", "tivars/numeric.py:RightNibbleBCD"]}
{"id": "C13", "title": "The six packed fields of an exact radical are independent", "statement": "In an exact radical number (sign type, denominator, left/right scalar, left/right radicand packed into nibbles) writing any field with a value of its range makes it read that value and leaves the values of the other five fields and the subtype byte unchanged, in any order and any number of times.", "quantifier": "every nine-byte content, every sequence of in-range field writes", "why_tests_cant": "Sequences of writes over overlapping byte ranges; tests check a handful of literals.", "anchors": ["tivars/types/real.py:TIRealRadical"]}
{"id": "C14", "title": "BCD dates and revisions round-trip", "statement": "Every date (day < 100, month < 100, year < 10000) stored in a flash header reads back unchanged, and every revision major.minor with both below 100 reads back unchanged; larger components are not silently accepted as a different date.", "quantifier": "every day, month, year, major and minor number", "why_tests_cant": "10^8 dates; tests read one.", "anchors": ["tivars/flash.py:BCDDate", "tivars/flash.py:BCDRevision"]}
{"id": "C15", "title": "Loading a decimal string stores its value truncated to 14 significant digits", "statement": "Loading a decimal literal (sign, digits without redundant leading zeros, optional fraction, optional exponent) stores a normalised mantissa with at most 14 digits whose value is the literal's value truncated toward zero to 14 significant digits, with the literal's sign; zero is stored with a zero mantissa.", "quantifier": "every decimal literal of any length whose exponent fits the format", "why_tests_cant": "Infinitely many literals; digit-count boundaries.", "anchors": ["tivars/types/real.py:TIReal.load_string", "tivars/types/real.py:TIReal.decimal"]}
{"id": "C16", "title": "Leading zeros do not change the value of a decimal literal", "statement": "Loading a decimal literal written with additional leading zeros stores the same value as the literal without them.", "quantifier": "every decimal literal and every number of additional leading zeros", "why_tests_cant": "Equivalence of infinitely many spellings.", "anchors": ["tivars/types/real.py:TIReal.load_string"]}
{"id": "C17", "title": "Reading a number as a decimal and loading it back is the identity", "statement": "For every stored normalised real number, converting it to its decimal value, printing it in any decimal notation and loading that string again stores the same nine bytes (up to the sign of zero); for every decimal with at most 14 significant digits and an exponent in range, loading and reading returns exactly it.", "quantifier": "every valid nine-byte number, every representable decimal and each of its printed forms", "why_tests_cant": "10^14 mantissas x 256 exponents x every notation.", "anchors": ["tivars/types/real.py:TIReal.decimal", "tivars/types/real.py:TIReal.load_decimal", "tivars/types/real.py:TIReal.load_string"]}
{"id": "C18", "title": "Loading a float stores the decimal the float prints as", "statement": "Loading a float (for example 1.23 or 0.3) and reading it back yields that float again.", "quantifier": "every float with at most 14 significant decimal digits", "why_tests_cant": "2^64 floats; the tests use a few.", "anchors": ["tivars/types/real.py:RealEntry.load_float", "tivars/types/real.py:RealEntry.float"]}
{"id": "C19", "title": "A failed numeric load leaves the number unchanged", "statement": "If loading a string into a real number raises an exception, the number still has the bytes it had before.", "quantifier": "every string, every current content", "why_tests_cant": "Exception paths times prior states.", "anchors": ["tivars/types/real.py:TIReal.load_string"]}
{"id": "C20", "title": "Negation flips the sign and nothing else", "statement": "Negating a stored real number changes exactly the sign bit: exponent, mantissa, graph bit and subtype stay, negating twice gives the original bytes, and the value is negated.", "quantifier": "every nine-byte content", "why_tests_cant": "All contents.", "anchors": ["tivars/types/real.py:RealEntry.__neg__", "tivars/types/real.py:RealEntry.sign_bit"]}
{"id": "C21", "title": "Fractions round-trip through their 14-digit decimal form", "statement": "Loading a fraction p/q with q <= 10000 and |p/q| < 10^5 into an exact fraction entry and reading it back as a fraction gives exactly p/q.", "quantifier": "every such fraction", "why_tests_cant": "About 10^13 fractions; depends on rounding and best rational approximation.", "anchors": ["tivars/types/real.py:TIRealFraction.load_fraction", "tivars/types/real.py:TIRealFraction.fraction"]}
{"id": "C22", "title": "Entry length arithmetic equals the serialised length", "statement": "For every entry with an 11- or 13-byte meta section, len(entry) equals the number of bytes it serialises to, and both length fields written are equal to the calc data length; when the calc data is longer than 65535 bytes serialising raises OverflowError instead of writing a wrong length.", "quantifier": "every entry content and meta length", "why_tests_cant": "All data sizes including the 64 KiB boundary.", "anchors": ["tivars/var.py:TIEntry.Raw.bytes", "tivars/var.py:TIEntry.__len__"]}
{"id": "C23", "title": "Entries survive a save/load round trip", "statement": "Loading the bytes of any well-formed entry into a fresh entry yields the same meta length, type, name, version, archived flag and data, with no corruption warning.", "quantifier": "every type, name, version, archived flag and data content", "why_tests_cant": "The parser contains a heuristic that depends on the relation between version, archived flag and data length.", "anchors": ["tivars/var.py:TIEntry.load_bytes", "tivars/var.py:TIEntry.bytes"]}
{"id": "C24", "title": "Loading an entry never crashes and consumes exactly its extent", "statement": "Loading any byte string whatsoever into an entry of a type without content-dependent classification terminates without an exception, and the stored data is never longer than the length field claims; every disagreement between the two length fields, or missing data, produces a warning.", "quantifier": "every byte string of every length, including truncated and corrupted ones", "why_tests_cant": "All malformed inputs.", "anchors": ["tivars/var.py:TIEntry.load_bytes"]}
{"id": "C25", "title": "Archiving and unarchiving are inverse and touch only the archived flag", "statement": "Archiving a flash entry marks it archived, unarchiving clears it, no other section changes; flash-less entries cannot be archived and raise TypeError unchanged; a save/load keeps the flag.", "quantifier": "every entry, every sequence of archive/unarchive calls", "why_tests_cant": "Histories of calls on arbitrary entries.", "anchors": ["tivars/var.py:TIEntry.archive", "tivars/var.py:TIEntry.unarchive", "tivars/var.py:TIEntry.archived"]}
{"id": "C26", "title": "Sized entries keep length field and data in step", "statement": "For every sized entry (program, string, equation, appvar, ...), after construction and any sequence of data assignments, clears and self loads, the two-byte length at the start of the calc data equals the number of data bytes that follow it.", "quantifier": "every operation history with arbitrary data", "why_tests_cant": "Histories of any length; the tests have a few short ones.", "anchors": ["tivars/var.py:SizedEntry", "tivars/data.py:SizedData.set"]}
{"id": "C27", "title": "Var files survive a save/load round trip", "statement": "Serialising a var with any header and any list of well-formed entries and loading the bytes yields the same header and the same entries in order, with no corruption warning.", "quantifier": "every header and every finite list of entries with total length below 65536", "why_tests_cant": "Unbounded entry lists, stream position arithmetic.", "anchors": ["tivars/var.py:TIVar.load_bytes", "tivars/var.py:TIVar.bytes", "tivars/var.py:TIEntry.next_entry_length"]}
{"id": "C28", "title": "Var file framing", "statement": "A serialised var consists of the 53-byte header, the little-endian total entry length, the entries back to back and the checksum: its size is 57 plus the sum of the entry lengths, and serialising raises OverflowError exactly when a length does not fit in two bytes.", "quantifier": "every var", "why_tests_cant": "All sizes and entry lists.", "anchors": ["tivars/var.py:TIVar.bytes", "tivars/var.py:TIVar.entry_length"]}
{"id": "C29", "title": "len(var) is the size of the saved file", "statement": "The length reported for a var equals the number of bytes it serialises to.", "quantifier": "every var", "why_tests_cant": "An identity over all vars that no test states.", "anchors": ["tivars/var.py:TIVar.__len__", "tivars/var.py:TIVar.bytes"]}
{"id": "C30", "title": "The checksum is the 16-bit sum and detects every single-byte corruption", "statement": "The stored checksum is the sum of all entry bytes modulo 65536; changing any one byte of the entry region of a file changes the checksum, and loading a file whose stored checksum does not match emits the checksum warning.", "quantifier": "every var, every position, every replacement byte", "why_tests_cant": "All files times all corruptions.", "anchors": ["tivars/var.py:TIVar.checksum", "tivars/var.py:TIVar.load_bytes"]}
{"id": "C31", "title": "Loading any file as a var terminates", "statement": "The entry-reading loop of var loading terminates for every byte string, producing at most entry_length/4 entries rounded up, even for truncated streams where the look-ahead seeks backwards.", "quantifier": "every byte string", "why_tests_cant": "Termination for all malformed inputs.", "anchors": ["tivars/var.py:TIVar.load_bytes", "tivars/var.py:TIEntry.next_entry_length"]}
{"id": "C32", "title": "Loading one entry by offset agrees with loading the whole var", "statement": "For every var and every index k below its number of entries, loading a single entry from the saved file with offset k yields the same entry as the k-th entry of the loaded var.", "quantifier": "every var and offset", "why_tests_cant": "Stream arithmetic over arbitrary prefixes of entries.", "anchors": ["tivars/var.py:TIEntry.load_from_file", "tivars/var.py:TIEntry.next_entry_length"]}
{"id": "C33", "title": "Adding an entry to a var stores that entry", "statement": "After adding an entry to a var, the last entry of the var is that entry, and the others are unchanged.", "quantifier": "every var and every entry, including entries with empty data", "why_tests_cant": "Depends on truthiness of the added entry.", "anchors": ["tivars/var.py:TIVar.add_entry", "tivars/var.py:TIEntry.__bool__"]}
{"id": "C34", "title": "Headers survive a save/load round trip", "statement": "Every header with section widths 8/2/1/42 serialises to 53 bytes which load back to an equal header, from a byte string as well as from a byte stream.", "quantifier": "every header content", "why_tests_cant": "All contents, both accepted argument kinds.", "anchors": ["tivars/var.py:TIHeader.load_bytes", "tivars/var.py:TIHeader.bytes"]}
{"id": "C35", "title": "A header made for a model targets that model", "statement": "The header constructed for any supported model lists that model among its targets, and loading a var that was created for a model with a header made for the same model emits no incompatibility warning and does not crash.", "quantifier": "all supported models", "why_tests_cant": "Needs all pairs of models and header variants.", "anchors": ["tivars/var.py:TIHeader.targets", "tivars/var.py:TIVar.load_bytes", "tivars/models/model.py"]}
{"id": "C36", "title": "A file extension can be computed for every model", "statement": "For every entry type and every model that supports it, the extension of the exported var is computed without an exception and is the extension of the newest listed model not newer than the target.", "quantifier": "every entry type's extension table, every model", "why_tests_cant": "All pairs of types and models.", "anchors": ["tivars/var.py:TIVar.extension"]}
{"id": "C37", "title": "Token lookup returns exactly the matching names, longest first", "statement": "For every token table, looking up a string returns exactly one match for every table name that is a prefix of the string, ordered from longest to shortest, each with the remaining string; when two tokens share a name the later one is returned.", "quantifier": "every finite list of (name, token) pairs and every string", "why_tests_cant": "All tables and strings.", "anchors": ["tivars/trie.py:TITokenTrie.insert", "tivars/trie.py:TITokenTrie.match", "tivars/trie.py:TITokenTrie.from_tokens"]}
{"id": "C38", "title": "Decoding loses no bytes", "statement": "Concatenating the bytes of the decoded tokens gives the decoded byte string back, up to a dropped tail that consists only of NUL bytes or of a single byte that starts no one-byte token.", "quantifier": "every token table and every byte string", "why_tests_cant": "All byte strings.", "anchors": ["tivars/tokenizer/decoder.py:decode"]}
{"id": "C39", "title": "Decoding inverts token concatenation", "statement": "For every token table whose codes are one or two bytes long, do not start with NUL and are prefix-free, decoding the concatenation of any sequence of table tokens returns exactly that sequence without warnings.", "quantifier": "every such table and every token sequence", "why_tests_cant": "Unbounded sequences.", "anchors": ["tivars/tokenizer/decoder.py:decode"]}
{"id": "C40", "title": "Encoding consumes the whole string as table names and byte literals", "statement": "If encoding succeeds, the input splits into consecutive pieces, each of which is the name of the emitted token or a byte literal denoting the emitted bytes, and the output is the concatenation of their codes; it fails with ValueError exactly when some reached suffix has no match.", "quantifier": "every token table, mode and string", "why_tests_cant": "All strings and tables.", "anchors": ["tivars/tokenizer/encoder.py:encode", "tivars/tokenizer/state.py:EncoderState.munch"]}
{"id": "C41", "title": "Encoding terminates", "statement": "For every token table without an empty name, encoding terminates on every string in every mode after at most as many steps as there are characters.", "quantifier": "every table, mode, string", "why_tests_cant": "Termination for all inputs.", "anchors": ["tivars/tokenizer/encoder.py:encode"]}
{"id": "C42", "title": "The tokenizer's context stack never runs out", "statement": "In every mode, whatever tokens are read, the stack of encoder states is never empty, so the internal 'state stack was consumed' error is unreachable; in smart mode the bottom of the stack is always the smart state and at most one context state sits on top of it.", "quantifier": "every token sequence", "why_tests_cant": "All token histories.", "anchors": ["tivars/tokenizer/encoder.py:encode", "tivars/tokenizer/state.py"]}
{"id": "C43", "title": "Maximal munch really is maximal", "statement": "In max mode every emitted token is the longest table name matching at its position; in min mode it is the shortest (or the second shortest when the text starts with an ASCII punctuation mark and several names match).", "quantifier": "every table, string and position", "why_tests_cant": "All strings.", "anchors": ["tivars/tokenizer/state.py:EncoderState.munch", "tivars/tokenizer/state.py:MaxMode", "tivars/tokenizer/state.py:MinMode"]}
{"id": "C44", "title": "Smart mode tokenises strings minimally and everything else maximally", "statement": "In smart mode, the munch mode applied to each token is determined by the context read so far: minimal inside string literals, program names and list names, maximal elsewhere, where a string literal is left by a quote, a store arrow or a newline.", "quantifier": "every token history", "why_tests_cant": "All histories of context switches.", "anchors": ["tivars/tokenizer/state.py:SmartMode", "tivars/tokenizer/state.py:String", "tivars/tokenizer/state.py:ProgramName", "tivars/tokenizer/state.py:ListName"]}
{"id": "C45", "title": "Escapes of unrecognised bytes re-encode to the same bytes", "statement": "The textual escape printed for an unrecognised one- or two-byte code is re-encoded, wherever it appears in a text, to exactly those bytes.", "quantifier": "every code of one or two bytes, every following text, every mode", "why_tests_cant": "65792 codes x all following texts.", "anchors": ["tivars/token.py:TIToken.escape", "tivars/tokenizer/state.py:EncoderState.munch"]}
{"id": "C46", "title": "The reported minimum OS is the latest one needed", "statement": "The OS version reported by encoding or decoding is the maximum of the versions in which the emitted tokens were introduced.", "quantifier": "every token sequence, every total order on versions", "why_tests_cant": "All sequences.", "anchors": ["tivars/tokenizer/encoder.py:encode", "tivars/tokenizer/decoder.py:decode"]}
{"id": "C47", "title": "Program versions grow with the tokens used and are recognised on load", "statement": "The version byte computed for tokenised data never decreases when the required OS increases, and every version byte the library computes is among those it recognises when loading (no 'version not recognized' warning).", "quantifier": "every pair of OS versions, every token content", "why_tests_cant": "All OS versions and contents.", "anchors": ["tivars/types/tokenized.py:TokenizedEntry.get_version", "tivars/types/tokenized.py:TokenizedEntry.versions"]}
{"id": "C48", "title": "Splitting a program into lines keeps every token", "statement": "Splitting tokenised data into lines and rejoining the lines with the separators gives all tokens back in order.", "quantifier": "every token sequence", "why_tests_cant": "All sequences, including string literals and stores.", "anchors": ["tivars/types/tokenized.py:TokenizedEntry.lines"]}
{"id": "C49", "title": "Protecting and unprotecting a program are inverse and keep its content", "statement": "Protecting an unprotected program changes only its type to protected; unprotecting restores the original; the data is untouched; both work for tokenised and assembly programs.", "quantifier": "every program", "why_tests_cant": "All contents and call sequences.", "anchors": ["tivars/types/tokenized.py:TIProgram.protect", "tivars/types/tokenized.py:TIProgram.unprotect", "tivars/types/tokenized.py:TIProgram.coerce"]}
{"id": "C50", "title": "Lists round-trip their elements", "statement": "Loading a sequence of n real (or complex) elements into a list stores n in the length field, keeps the elements' nine (eighteen) bytes in order, and reading the list returns the same elements; more than 65535 elements raise OverflowError.", "quantifier": "every finite sequence of elements", "why_tests_cant": "Unbounded sequences.", "anchors": ["tivars/types/list.py:TIList.load_list", "tivars/types/list.py:TIList.list"]}
{"id": "C51", "title": "Every list a user can build can be loaded again", "statement": "The serialised form of any list, including the empty list, loads back into an equal list.", "quantifier": "every list length", "why_tests_cant": "Lists of every length and content; the list tests load two files and their arrays and texts.", "anchors": ["tivars/types/list.py:TIList.coerce", "tivars/types/list.py:TIList.load_bytes"]}
{"id": "C52", "title": "Matrices round-trip rows and columns", "statement": "Loading a rectangular w x h array (1 <= w, h <= 255) stores w and h and all elements row by row; reading returns the same rows; a ragged array is rejected with IndexError.", "quantifier": "every rectangular and ragged array of elements", "why_tests_cant": "All shapes.", "anchors": ["tivars/types/matrix.py:TIMatrix.load_matrix", "tivars/types/matrix.py:TIMatrix.matrix"]}
{"id": "C53", "title": "A list or matrix gets the version of its most demanding element", "statement": "The version byte computed for a list or matrix is the one required by its most demanding element.", "quantifier": "every list and matrix content", "why_tests_cant": "All contents.", "anchors": ["tivars/types/list.py:TIList.get_version", "tivars/types/matrix.py:TIMatrix.get_version"]}
{"id": "C54", "title": "Pixel codecs are lossless on stored data", "statement": "Decoding and re-encoding any stored pixel data reproduces it for black-and-white bytes and for RGB565 byte pairs, and for palette bytes reproduces a byte that decodes to the same colours.", "quantifier": "every stored byte (pair)", "why_tests_cant": "All bytes and byte pairs.", "anchors": ["tivars/types/picture.py:L1", "tivars/types/picture.py:RGBPalette", "tivars/types/picture.py:RGB565"]}
{"id": "C55", "title": "The palette picks a nearest colour and warns exactly when inexact", "statement": "The palette colour chosen for any RGB triple minimises the Euclidean distance among the 16 palette entries and the approximation warning is emitted exactly when the triple is not a palette colour; palette colours map to themselves.", "quantifier": "every integer RGB triple", "why_tests_cant": "16.7 million triples.", "anchors": ["tivars/types/picture.py:RGBPalette.nearest"]}
{"id": "C56", "title": "Pictures round-trip their pixel arrays", "statement": "Loading a full-size array of pixels into a mono picture (96 x 63), colour picture (266 x 165, palette colours) or image (133 x 83, 565-representable colours) and reading the array returns the same array.", "quantifier": "every array of that shape", "why_tests_cant": "256^(w*h) arrays.", "anchors": ["tivars/types/picture.py:TIMonoPicture", "tivars/types/picture.py:TIPicture", "tivars/types/picture.py:TIImage"]}
{"id": "C57", "title": "A freshly loaded image reports the length the format requires", "statement": "After loading a pixel array into an image, its length field is the number of bytes that follow it, so that saving and loading the image again emits no length warning.", "quantifier": "every full-size pixel array", "why_tests_cant": "Depends on the interaction of a leading magic byte with the size bookkeeping for all arrays.", "anchors": ["tivars/types/picture.py:TIImage.data", "tivars/data.py:SizedData.set", "tivars/var.py:SizedEntry"]}
{"id": "C58", "title": "Window and table settings fields are independent", "statement": "In window, recall-window and table settings, writing any field stores the number's nine bytes at that field only; every other field keeps its value and the total size does not change, for any sequence of writes.", "quantifier": "every content and every sequence of field writes", "why_tests_cant": "Histories over 23 fields.", "anchors": ["tivars/types/settings.py:TIWindowSettings", "tivars/types/settings.py:TIRecallWindow", "tivars/types/settings.py:TITableSettings"]}
{"id": "C59", "title": "Equations of a graph database can be replaced individually", "statement": "Replacing one equation of a graph database and reading all equations returns the new equation at its index and the old ones elsewhere (styles are shared within a parametric pair), with window settings, mode and colour tail unchanged.", "quantifier": "every database content, index and equation of any length", "why_tests_cant": "Variable-length packed equations; all contents.", "anchors": ["tivars/types/gdb.py:TIGraphedEquation.__class_getitem__.IndexedEquationConverter", "tivars/types/gdb.py:TIMonoGDB.get_equations"]}
{"id": "C60", "title": "A graph database keeps its length field in step with its equations", "statement": "After replacing an equation of a graph database its length field still equals the number of bytes that follow it.", "quantifier": "every database and equation", "why_tests_cant": "All contents.", "anchors": ["tivars/types/gdb.py:TIGraphedEquation.__class_getitem__.IndexedEquationConverter.set", "tivars/var.py:SizedEntry.length"]}
{"id": "C61", "title": "A fresh graphed equation is empty", "statement": "A newly created equation for a graph database has no tokens and can be stored into a database without disturbing the equations after it.", "quantifier": "every database and index", "why_tests_cant": "Consequences reach all following equations.", "anchors": ["tivars/types/gdb.py:TIGraphedEquation", "tivars/var.py:SizedEntry.clear"]}
{"id": "C62", "title": "Grouping and ungrouping is the identity", "statement": "Ungrouping a group made from any list of entries returns entries with the same types, names, versions, archived flags and data, in order.", "quantifier": "every finite list of entries of every groupable type", "why_tests_cant": "Unbounded lists, per-type variable-length headers.", "anchors": ["tivars/types/group.py:TIGroup.group", "tivars/types/group.py:TIGroup.ungroup"]}
{"id": "C63", "title": "Flash blocks round-trip and carry a valid Intel-HEX checksum", "statement": "Every flash block with at most 255 data bytes serialises to a record ':' size address type data checksum whose bytes sum to 0 modulo 256, and loading the record gives the block back.", "quantifier": "every address, type and data", "why_tests_cant": "All blocks.", "anchors": ["tivars/flash.py:TIFlashBlock"]}
{"id": "C64", "title": "Flash headers survive a save/load round trip", "statement": "Loading the bytes of a flash header yields a header with the same fields that serialises to the same bytes.", "quantifier": "every flash header (constructed or loaded)", "why_tests_cant": "All names, device lists and data.", "anchors": ["tivars/flash.py:TIFlashHeader.load_bytes", "tivars/flash.py:TIFlashHeader.bytes", "tivars/flash.py:TIFlashHeader.Raw.bytes"]}
{"id": "C65", "title": "Several flash headers in one file are all found", "statement": "Looking ahead in a file of concatenated flash headers (with or without checksums) returns exactly the extent of the next header and leaves the read position unchanged.", "quantifier": "every concatenation of headers", "why_tests_cant": "Unbounded sequences, stream arithmetic.", "anchors": ["tivars/flash.py:TIFlashHeader.next_header_length"]}
{"id": "C66", "title": "Loading any string into a real number terminates", "statement": "Loading any string whatsoever into a real number ends, either storing a value or raising an exception; the digit-normalising loop never runs forever.", "quantifier": "every string (any length, any characters)", "why_tests_cant": "A non-terminating loop can hide on inputs no test tries; termination must hold for every string.", "anchors": ["tivars/types/real.py:TIReal.load_string"]}
{"id": "C67", "title": "Names are read minimally up to the documented number of tokens", "statement": "In smart mode a program name is read minimally for at most 8 tokens and a list name for at most 5 (the limits documented for the encoder); tokens after that are read maximally again.", "quantifier": "every token table and every string", "why_tests_cant": "An off-by-one in the counter shows only on names that are exactly one token too long and are followed by text that reads differently in the two modes.", "anchors": ["tivars/tokenizer/encoder.py:encode", "tivars/tokenizer/state.py:EncoderState.munch", "tivars/tokenizer/state.py:ListName", "tivars/tokenizer/state.py:ProgramName"]}
{"id": "C68", "title": "Loading a saved var does not report conflicting meta lengths that agree", "statement": "Loading the bytes of a var whose entries all have the same meta length emits no warning about entries with different meta lengths.", "quantifier": "every var whose entries share one meta length, flash or flashless", "why_tests_cant": "Depends on the order in which a placeholder entry is added and filled, for any number of entries.", "anchors": ["tivars/var.py:TIVar.add_entry", "tivars/var.py:TIVar.load_bytes"]}
{"id": "C69", "title": "Loading tokens into an entry and reading them back gives the same tokens", "statement": "After loading any sequence of tokens into an equation, string or program, reading the tokens gives the same sequence, the stored length is the number of bytes of their codes, the version is that of the least OS having all the tokens, and nothing else of the entry changes.", "quantifier": "every prefix-free token table, every sequence of its tokens, every entry", "why_tests_cant": "All sequences, including the empty one, and every previous content of the entry.", "anchors": ["tivars/types/tokenized.py:TokenizedEntry.load_tokens", "tivars/types/tokenized.py:TokenizedEntry.tokens", "tivars/types/tokenized.py:TokenizedEntry.get_version"]}
{"id": "C70", "title": "Loading text into an entry stores the tokens of the text and reads back the same text", "statement": "Loading text that can be encoded stores exactly the tokens the text splits into, and if the pieces are display names reading the entry as text gives the text back (a string entry: between quotation marks). Text that cannot be encoded raises an error and leaves the entry unchanged.", "quantifier": "every token table, tokenization mode, text and entry", "why_tests_cant": "All texts and tables; previous content of the entry.", "anchors": ["tivars/types/tokenized.py:TokenizedEntry.load_string", "tivars/types/tokenized.py:TIString.load_string", "tivars/types/tokenized.py:TIString.string", "tivars/types/tokenized.py:TokenizedEntry.__format__"]}
{"id": "C71", "title": "Each of the ten image names is accepted and reads back", "statement": "Setting an image's name to any of Image1, ..., Image9, Image0 stores the two-byte code of that image and reading the name gives the same text; any other text is reported by a warning and stored as the first image.", "quantifier": "every text and every previous name", "why_tests_cant": "The other texts are unbounded, and a suite checking the usual names misses the one that behaves differently.", "anchors": ["tivars/types/picture.py:ImageName"]}
{"id": "C72", "title": "Loading the dictionary that settings produce gives the settings back", "statement": "Loading the dictionary produced by window, saved window or table settings into settings of the same kind stores every number of the dictionary.", "quantifier": "every settings entry of each of the three kinds", "why_tests_cant": "Quantifies over all contents; no test in the suite loads such a dictionary.", "anchors": ["tivars/types/settings.py:SettingsEntry.load_dict", "tivars/types/settings.py:TIWindowSettings.dict"]}
{"id": "C73", "title": "Numbers and equations of a graph database do not disturb each other", "statement": "Storing a number into a graph database leaves every equation with its style and colour and the colour settings as they were; replacing an equation leaves every number and the modes as they were.", "quantifier": "every kind of graph database, every content, every field and index", "why_tests_cant": "The position of the equations depends on the kind and on the lengths of all equations before; all combinations cannot be listed.", "anchors": ["tivars/types/gdb.py:TIMonoGDB.get_equations", "tivars/types/gdb.py:TIMonoGDB.get_color_data", "tivars/types/gdb.py:TIGraphedEquation"]}
{"id": "C74", "title": "Flash data made of records is read back as the same blocks", "statement": "Joining flash blocks, one per line, into the data of a flash header and reading the blocks of that data gives the same blocks in order; data with a line end after its last record reads the same.", "quantifier": "every list of blocks", "why_tests_cant": "All lists of all lengths, with all contents of each block.", "anchors": ["tivars/flash.py:FlashData.get", "tivars/flash.py:FlashData.set"]}
{"id": "C75", "title": "A new entry is blank", "statement": "An entry of any kind but an equation of a graph database, made with any name, version and archived flag but without data, has the type of its kind, flash bytes, the given name and flags, and the blank data of its kind: numbers have their subtype bytes and are zero, lists and matrices have no elements, everything else has the size of its kind, all null but the colours of grid and axes in colour graph databases, with a length field that counts it. Where no version is given it is that of the kind.", "quantifier": "every class, name, version and archived flag", "why_tests_cant": "Forty-eight classes with any combination of arguments, against sizes and types that each class states for itself.", "anchors": ["tivars/var.py:TIEntry.__init__", "tivars/var.py:TIEntry.clear", "tivars/var.py:SizedEntry.clear", "tivars/types/real.py:RealEntry.clear", "tivars/types/complex.py:ComplexEntry.clear", "tivars/types/gdb.py:TIGDB.__init__"]}
{"id": "C76", "title": "Assigning data replaces the data and nothing but length and version", "statement": "Assigning bytes to the data of an entry of any kind makes these bytes its data; the length field counts them, the dimensions of lists and matrices and the leading byte of images stay, the version becomes that of the new data, and name, type, archived flag and meta length stay. More bytes than the length field can count, and complex data too short to have a version, are refused without changing the entry.", "quantifier": "every class, every content before and every data assigned", "why_tests_cant": "All contents and data of all lengths, for each class with its own layout of length and data.", "anchors": ["tivars/data.py:Data.set", "tivars/data.py:SizedData.set", "tivars/data.py:View.__set__", "tivars/types/list.py:TIList.data", "tivars/types/matrix.py:TIMatrix.data", "tivars/types/picture.py:TIImage.data"]}
{"id": "C77", "title": "A copy of an entry equals the entry", "statement": "Copying an entry gives an entry of the same class with the same bytes, which compares equal to it.", "quantifier": "every entry of every class but equations of graph databases", "why_tests_cant": "Copying goes through serialising and loading, so any content that loads as something else breaks it.", "anchors": ["tivars/var.py:TIEntry.__copy__", "tivars/var.py:TIEntry.__eq__", "tivars/var.py:TIEntry.load_bytes"]}
{"id": "C78", "title": "Fractions are rounded to the nearest 14-digit decimal", "statement": "Loading a fraction into an exact fraction entry stores the 14-digit decimal nearest to it, ties going to the even last digit, and keeps the subtype and the graph bit; if the rounded number is neither zero nor within the range of the exponent, OverflowError is raised.", "quantifier": "every fraction and every previous content of the entry", "why_tests_cant": "All fractions of all sizes; rounding errors show in the last digit of rare quotients and ties.", "anchors": ["tivars/types/real.py:TIRealFraction.load_fraction", "tivars/types/real.py:TIReal.load_decimal"]}
{"id": "C79", "title": "Texts, decimals and floats are loaded into fraction entries with their exact value", "statement": "Loading a decimal text, a ratio of two integers as text, a decimal or a finite float into an exact fraction entry is the same as loading the fraction which that number exactly is, so that it is rounded once and to the nearest. A ratio with denominator zero raises `ZeroDivisionError` and stores nothing.", "quantifier": "every literal with a digit, every ratio, every finite decimal and float", "why_tests_cant": "Unboundedly many texts and numbers; a second rounding on the way shows only in rare cases.", "anchors": ["tivars/types/real.py:TIRealFraction.load_string", "tivars/types/real.py:TIReal.load_decimal", "tivars/types/real.py:RealEntry.load_float"]}
{"id": "C80", "title": "The text of a fraction entry loads back as the same fraction", "statement": "The text of an exact fraction entry whose fraction is below 10^6 loads into any fraction entry, which then has the same fraction and the same text.", "quantifier": "every content of the entry with a fraction below 10^6, every previous content of the entry loaded into", "why_tests_cant": "All contents; needs printing, parsing, rounding and best approximation to fit together.", "anchors": ["tivars/types/real.py:TIRealFraction.__format__", "tivars/types/real.py:TIRealFraction.load_string", "tivars/types/real.py:TIRealFraction.fraction"]}
{"id": "C81", "title": "Fractional multiples of pi round-trip", "statement": "Loading a fraction p/q with q <= 10000 and |p/q| < 10^5 into an entry for fractional multiples of pi and reading the multiple gives exactly p/q, although reading multiplies by pi, rounds, and divides by pi again.", "quantifier": "every such fraction", "why_tests_cant": "About 10^13 fractions; depends on the error of three rounded operations staying below the gap between fractions.", "anchors": ["tivars/types/real.py:TIRealPiFraction.fraction", "tivars/types/real.py:TIRealPi.decimal", "tivars/types/real.py:TIRealPi"]}
{"id": "C82", "title": "The text of a fractional multiple of pi loads back", "statement": "The text of an entry for fractional multiples of pi below 10^5 loads into any such entry, which then has the same fraction and text.", "quantifier": "every content of the entry with a fraction below 10^5, every previous content of the entry loaded into", "why_tests_cant": "All contents; the texts that fail are those of one shape only.", "anchors": ["tivars/types/real.py:TIRealPiFraction.__format__", "tivars/types/real.py:TIRealPiFraction.load_string"]}
{"id": "C83", "title": "Multiples of pi are read from text in all their spellings", "statement": "A decimal literal followed by π, pi, *π or *pi is loaded into an entry for multiples of pi as the literal alone is loaded into an ordinary number; a bare π means one; text without π or pi raises ValueError and changes nothing.", "quantifier": "every literal, every text and every previous content", "why_tests_cant": "Unboundedly many texts; the suite loads a few.", "anchors": ["tivars/types/real.py:TIRealPi.load_string"]}
{"id": "C84", "title": "The text of a number is its value rounded to 14 decimals", "statement": "The text of a real number is a decimal literal without exponent, without redundant leading zeros and without trailing zeros after the point, and its value is the value of the number rounded half to even at 14 decimals.", "quantifier": "every content of the entry that reads as a number", "why_tests_cant": "All exponents and digit patterns; trailing zeros before the point and ties at the 14th decimal are rare in tests.", "anchors": ["tivars/types/real.py:RealEntry.__format__", "tivars/types/real.py:TIReal.decimal"]}
{"id": "C85", "title": "The text of a number loads back as the same number", "statement": "Loading the text of a number with 14 stored digits into the same entry leaves its bytes unchanged, and loading it into any other entry gives the same value.", "quantifier": "every content of the entry with decimal digits, every previous content of the entry loaded into", "why_tests_cant": "All exponents and digit patterns; printing, rounding and parsing have to fit together.", "anchors": ["tivars/types/real.py:RealEntry.__format__", "tivars/types/real.py:TIReal.load_string"]}
{"id": "C86", "title": "The text of a multiple of pi loads back", "statement": "The text of an entry for multiples of pi is its factor followed by π, and loading it leaves the bytes of the entry unchanged.", "quantifier": "every content of the entry with decimal digits", "why_tests_cant": "All exponents and digit patterns; zero prints in another form than every other value.", "anchors": ["tivars/types/real.py:TIRealPi.__format__", "tivars/types/real.py:TIRealPi.load_string"]}
{"id": "C87", "title": "Loading a radical from text gives the value the text denotes", "statement": "Loading a text of the form (±a√b ± c√d)/e into a radical stores a radical with exactly the value the text denotes, with the larger radicand on the left; a text that cannot be stored exactly is refused and leaves the entry unchanged.", "quantifier": "every text of the grammar (optional parentheses, spellings of the root, signs, missing factors, one or two summands, optional denominator), every previous content", "why_tests_cant": "The texts are unbounded and the parser is a chain of string replacements and splits; a missing factor, root or denominator takes different paths.", "anchors": ["tivars/types/real.py:TIRealRadical.load_string"]}
{"id": "C88", "title": "The text of a radical denotes its value and loads back", "statement": "The text of a radical, in the short and in the full form, denotes the value of the stored fields, and loading it gives the same value and the same text again; the full form gives the same fields.", "quantifier": "every content of the entry with a nonzero denominator and decimal digits", "why_tests_cant": "There are about 10^15 combinations of factors, radicands and signs, and parts that are 0 or 1 are printed in shortened forms.", "anchors": ["tivars/types/real.py:TIRealRadical.__format__", "tivars/types/real.py:TIRealRadical.load_string"]}
{"id": "C89", "title": "Setting a part of a complex number changes only that part", "statement": "Assigning a real number of any kind to the real or imaginary part stores exactly that number, marked with the subtype of its kind, and reading the part returns it with the same value and text; the other part is unchanged, and the class and type of the entry follow the kind of the imaginary part.", "quantifier": "every complex entry, every content of both parts, every number of every kind", "why_tests_cant": "Six kinds of numbers for each part and all byte contents; the suite sets parts of a few numbers.", "anchors": ["tivars/types/complex.py:RealPart", "tivars/types/complex.py:ImaginaryPart", "tivars/types/complex.py:ComplexEntry.real_type"]}
{"id": "C90", "title": "Assigning a number as a part of a complex number does not change it", "statement": "After a real number is assigned to the real or imaginary part of a complex number, the assigned number has the same bytes as before.", "quantifier": "every complex entry, every number of every kind", "why_tests_cant": "The change is outside the entry that was assigned to; the tests compare the parts of the complex number and not the object that was assigned.", "anchors": ["tivars/types/complex.py:RealPart.set", "tivars/types/complex.py:ImaginaryPart.set"]}
{"id": "C91", "title": "Complex numbers are read from text with both parts", "statement": "Text of the form a, bi, or a±bi, with i, [i] or j as the unit, an optional * before it and a factor of 1 when none is written, loads with real part a and imaginary part b, each truncated to 14 significant digits; other text is refused.", "quantifier": "every such text, every previous content of the entry", "why_tests_cant": "Unboundedly many texts; signs, missing factors and exponents are all handled by replacing and splitting characters.", "anchors": ["tivars/types/complex.py:ComplexEntry.load_string"]}
{"id": "C92", "title": "The text of a complex number loads back", "statement": "Loading the text of a complex number gives a number with the same parts.", "quantifier": "every content of both parts, every previous content of the entry loaded into", "why_tests_cant": "The special cases of zero parts, a factor of one and negative imaginary parts interact; printing and parsing have to fit together.", "anchors": ["tivars/types/complex.py:ComplexEntry.__format__", "tivars/types/complex.py:ComplexEntry.load_string"]}
{"id": "C93", "title": "The version of a complex number is that of its parts", "statement": "The version of a complex entry is the later of the versions that introduced the kinds of its two parts: 0 for ordinary numbers, 0x0B for fractions, 0x10 for the rest.", "quantifier": "every complex entry of every kind, every content", "why_tests_cant": "The version is computed from raw bytes, for all contents of both parts; the suite has a few complex numbers.", "anchors": ["tivars/types/complex.py:ComplexEntry.get_version"]}
{"id": "C94", "title": "The text of a real number determines its kind", "statement": "A text passed to RealEntry becomes an ordinary number if it is a decimal, a fraction if it is a ratio of integers, a radical if it is a sum of square roots over a denominator, and a decimal or fractional multiple of pi if it is one; the number holds the value of the text, exactly or, for decimals, truncated to 14 digits. Any other text is refused with ValueError.", "quantifier": "every text of each form, with any spacing that the class accepts", "why_tests_cant": "Each class is tried in turn and accepts whatever its own parser lets through, so a text may be taken by an earlier class; the forms are unbounded.", "anchors": ["tivars/var.py:TIEntry.load_string", "tivars/types/real.py:TIReal.load_string", "tivars/types/real.py:TIRealRadical.load_string"]}
{"id": "C95", "title": "Lists are read from text element by element", "statement": "Texts of numbers separated by commas and enclosed in brackets or braces load into a real or complex list as these numbers in order, with the length stored and a warning above 999; if an element is refused, its error is raised and the list is unchanged.", "quantifier": "every number of elements below 65536, every text of the elements, every enclosing brackets, every previous content", "why_tests_cant": "Lists of any length and elements of any kind; characters are stripped and split before any number is read.", "anchors": ["tivars/types/list.py:TIList.load_string", "tivars/types/list.py:TIList.load_list"]}
{"id": "C96", "title": "Matrices are read from text row by row", "statement": "Rows of texts of numbers in brackets, all of one width, written with or without commas between the rows and any spacing, load into a matrix as these numbers row by row with width and height stored; rows of different widths raise IndexError and refused elements ValueError, and the matrix is unchanged.", "quantifier": "every width and height up to 255, every text of the elements, every previous content", "why_tests_cant": "The text is split at brackets after several replacements, which have to agree for every number of rows and columns.", "anchors": ["tivars/types/matrix.py:TIMatrix.load_string", "tivars/types/matrix.py:TIMatrix.load_matrix"]}
{"id": "C97", "title": "The text of a list loads back", "statement": "The text of a list loads into any list of the same kind as the same number of elements, each of the same kind and with the same value.", "quantifier": "every nonempty list of any length and of numbers of every kind, every previous content of the list loaded into", "why_tests_cant": "Lists of any length mixing five kinds of numbers; the text of every element has to be told apart from the other kinds and from the separators.", "anchors": ["tivars/types/list.py:TIList.__format__", "tivars/types/list.py:TIList.load_string", "tivars/types/real.py:RealEntry.__format__"]}
{"id": "C98", "title": "The text of a matrix loads back", "statement": "The text of a matrix loads into any matrix with the same width and height, each element of the same kind and with the same value.", "quantifier": "every width and height up to 255, numbers of every kind, every previous content of the matrix loaded into", "why_tests_cant": "Matrices of any size mixing five kinds of numbers; rows and elements are separated by the same characters.", "anchors": ["tivars/types/matrix.py:TIMatrix.__format__", "tivars/types/matrix.py:TIMatrix.load_string", "tivars/types/real.py:RealEntry.__format__"]}
{"id": "C99", "title": "The dictionary of a graphed equation is stored as it says", "statement": "Loading a dictionary into a graphed equation stores the style and colour it names, the tokens of its text with their length, and the flags, whatever the equation held before. If something is missing or unknown, the first such thing in the order style, colour, text, flags raises KeyError, TypeError or AttributeError, and what precedes it is kept as stored.", "quantifier": "every dictionary, every text that can be tokenized, every previous equation", "why_tests_cant": "Texts are of any length and the previous content is arbitrary; the suite loads a few fixed dictionaries.", "anchors": ["tivars/types/gdb.py:TIGraphedEquation.load_dict", "tivars/types/gdb.py:TIGraphedEquation.load_equation"]}
{"id": "C100", "title": "The dictionary of a graphed equation loads back", "statement": "The dictionary written for a graphed equation loads into any graphed equation as the same style, colour, flags and tokens.", "quantifier": "every graphed equation of any number of tokens, every previous equation", "why_tests_cant": "Equations are of any length and the text has to be that of the tokens exactly.", "anchors": ["tivars/types/gdb.py:TIGraphedEquation.dict", "tivars/types/gdb.py:TIGraphedEquation.load_dict", "tivars/var.py:TIEntry.string"]}
{"id": "C101", "title": "The dictionary of a graph database is stored as it says", "statement": "Loading a dictionary into a graph database makes it the database described: mode, format settings, expression and sequence settings, numbers, equations with style and colour, and colour settings are what the dictionary says, the last mention of a key deciding, and everything not mentioned is zero, whatever the database held before; the class is the one due for the mode and the colours.", "quantifier": "every dictionary with known names, any order and number of settings, equations of any length, every previous content, every class", "why_tests_cant": "Settings interact through shared bytes and the equations move everything behind them; a suite tries a handful of dictionaries.", "anchors": ["tivars/types/gdb.py:TIMonoGDB.load_dict", "tivars/types/gdb.py:TIGDB._load_dict", "tivars/types/gdb.py:TIMonoSeqGDB._load_dict"]}
{"id": "C102", "title": "The dictionary of a graph database loads back", "statement": "The dictionary written for a graph database loads into any database of the same class as the same bytes, provided the numbers go through JSON unharmed.", "quantifier": "every graph database of every class, every conversion of numbers, every previous content", "why_tests_cant": "All settings, styles, colours and numbers vary independently, and one that is written but not read back shows only for particular values.", "anchors": ["tivars/types/gdb.py:TIMonoGDB.dict", "tivars/types/gdb.py:TIGDB.dict", "tivars/types/gdb.py:TIMonoGDB.load_dict"]}
{"id": "C103", "title": "The minimum OS of an entry is that of the newest thing in it", "statement": "The minimum OS of an entry is the greatest of those of its parts: numbers need OS 2.53 (complex: 2.55) for fractions, lists and matrices the greatest of their elements, programs, strings and equations the greatest of their tokens, graph databases of their equations, groups of the entries in them, assembly programs that of their marks.", "quantifier": "every entry of every class, content of any length, groups nested to any depth, every order of OS versions", "why_tests_cant": "The content is of any length and nested to any depth; a too small minimum shows only on a calculator.", "anchors": ["tivars/var.py:TIEntry.get_min_os", "tivars/types/real.py:RealEntry.get_min_os", "tivars/types/complex.py:ComplexEntry.get_min_os", "tivars/types/list.py:TIList.get_min_os", "tivars/types/tokenized.py:TokenizedEntry.get_min_os", "tivars/types/group.py:TIGroup.get_min_os"]}
{"id": "C104", "title": "A model supports what its latest OS and its features allow", "statement": "An entry is supported by a model exactly if its minimum OS is older than the latest of the model and, for radicals and multiples of pi, the model has exact math; a var is supported if its header is for the model and every entry is supported.", "quantifier": "every entry, every model, every var with any number of entries, every order of OS versions", "why_tests_cant": "All combinations of models, kinds of numbers and OS versions matter, and the OS table is data that changes.", "anchors": ["tivars/var.py:TIEntry.supported_by", "tivars/var.py:TIVar.supported_by", "tivars/types/real.py:RealEntry.supported_by", "tivars/types/complex.py:ComplexEntry.supported_by", "tivars/models/model.py:TIModel.has"]}
{"id": "C105", "title": "Saving a var and opening the file gives the var back", "statement": "A var is saved to the file its argument names, given the extension of the var if it has none; no other file changes; opening the file gives the same header and entries without a report of damage. A save that fails changes no file, and a save for a model warns exactly of the entries the model does not support.", "quantifier": "every var with any number of entries, every file name, every directory of files, every model", "why_tests_cant": "The order of opening the file and computing its content matters only when computing fails, and the check of the model has to agree with another method for every kind of entry.", "anchors": ["tivars/var.py:TIVar.save", "tivars/var.py:TIVar.open", "tivars/var.py:TIVar.filename", "tivars/var.py:TIVar.extension"]}
{"id": "C106", "title": "Saving an entry and opening the file with its class gives the entry back", "statement": "An entry is exported as a var of that entry alone with the header given; saved and opened by its class it is the same entry, and nothing reports damage or an unexpected file name. A file of several entries opens as the first and is reported to have several.", "quantifier": "every entry of every class whose content agrees with it, every header, model and file name, files of any number of entries", "why_tests_cant": "Entries behind the first are of any length, and what is reported depends on single bytes of them.", "anchors": ["tivars/var.py:TIEntry.save", "tivars/var.py:TIEntry.export", "tivars/var.py:TIEntry.open"]}
{"id": "C107", "title": "An entry formats as its bytes in hexadecimal", "statement": "Formatting an entry with a width, `x` or `X` and a separator, the first and last optional, gives the two-digit texts of its bytes in the case of the letter, in groups of the width counted from the end (from the start for a negative width) with the separator between them; the bytes can be read back from it; any other specification is refused.", "quantifier": "every content of every length, every width, every separator, every specification", "why_tests_cant": "The grouping depends on the length and on the sign of the width, and the separator may be any character.", "anchors": ["tivars/var.py:TIEntry.__format__"]}
{"id": "C108", "title": "A tokenized entry formats as the names of its tokens", "statement": "Formatting a tokenized entry gives the display or accessible names of its tokens in the language named, each line preceded by its number if a format for numbers and a separator are given; the specifications for hexadecimal text work as for any other entry.", "quantifier": "every token table, every table of names, every content, every specification of the documented form", "why_tests_cant": "The specification is taken apart by a regular expression with backtracking, and what is a line number format to it may be meant as a hexadecimal one.", "anchors": ["tivars/types/tokenized.py:TokenizedEntry.__format__", "tivars/types/tokenized.py:TokenizedEntry.decode"]}
{"id": "C109", "title": "A number formatted for typing can be loaded again", "statement": "Formatting a real or complex number with `t` gives its text with the keys of a calculator: `~` for negation, `n/d` for fractions, `sqrt(` for roots and `[i]` for the unit, without spaces; loading that text gives a number of the same kind and value.", "quantifier": "every number of every kind whose ordinary text is of the form of its kind", "why_tests_cant": "Numbers have fourteen digits and radicals four fields; which texts load depends on the kind and on the sign of single parts.", "anchors": ["tivars/types/real.py:RealEntry.__format__", "tivars/types/complex.py:ComplexEntry.__format__", "tivars/types/real.py:TIReal.load_string", "tivars/types/complex.py:ComplexEntry.load_string"]}
{"id": "C110", "title": "A list or matrix formatted for typing can be loaded again", "statement": "Formatting a list with `t` gives the texts of its elements for typing between braces with commas, a matrix those of its rows between brackets with nothing between them; loading the text gives elements of the same kinds and values.", "quantifier": "every list of 1 to 65535 elements, every matrix of 1 to 255 rows and columns", "why_tests_cant": "Any element in any place can spoil the text, and the brackets of the last element are next to those of the list.", "anchors": ["tivars/types/list.py:TIList.__format__", "tivars/types/list.py:TIList.load_string", "tivars/types/matrix.py:TIMatrix.__format__", "tivars/types/matrix.py:TIMatrix.load_string"]}
{"id": "C111", "title": "What a dictionary of a graph database has too much is reported and ignored", "statement": "Names of format settings, numbers and equations that mean nothing for the database, and settings of sequences in a dictionary of another mode, each give a warning; apart from the warnings, loading ends exactly as without them.", "quantifier": "every dictionary, every conversion of numbers and texts, every database of every kind in any state", "why_tests_cant": "The names are any texts in any number between the known ones, and some are known to other parts of the code.", "anchors": ["tivars/types/gdb.py:TIMonoGDB.load_dict", "tivars/types/gdb.py:GraphMode"]}
{"id": "C112", "title": "Loading an object runs the method meant for its kind", "statement": "`load` of an entry, handed bytes, text, a number, a dictionary, a sequence, a file or an equation, runs the loader method meant for that kind of object, in the definition of the most derived class that has one, and nothing else; what the class has no method or no use for raises `TypeError` and changes nothing.", "quantifier": "all classes of entries, all kinds of objects, all behaviours of the loader methods", "why_tests_cant": "The table of loaders is built by inheritance over dozens of classes with several bases, and the order of its entries decides.", "anchors": ["tivars/data.py:Dock.load", "tivars/data.py:Loader", "tivars/types/tokenized.py:TokenizedEntry.load_tokens", "tivars/types/gdb.py:TIGraphedEquation.load_equation"]}
{"id": "C113", "title": "A graphed equation made from a text, a dictionary, an equation or another one holds what these say", "statement": "The constructor of graphed equations, handed a text, a dictionary or an equation, makes one with the tokens of the text or equation and the style, colour and flags of the dictionary; a copy has the style and colour of the original.", "quantifier": "every text that can be encoded, every dictionary of known names, every equation, every state of a graphed equation, every token table", "why_tests_cant": "Which parts are kept depends on the order of statements in two constructors and on the fields that count as bytes of the entry.", "anchors": ["tivars/types/gdb.py:TIGraphedEquation.__init__", "tivars/types/gdb.py:TIGraphedEquation.load_string", "tivars/types/gdb.py:TIGraphedEquation.load_dict", "tivars/var.py:TIEntry.__init__", "tivars/var.py:TIEntry.__copy__"]}
{"id": "C114", "title": "The decimal value and the sign of a radical are those of its fields", "statement": "`decimal()` of a radical (a√m + b√n)/d agrees with its true value to 16 digits, whatever cancels between the two roots; `sign` is -1 exactly if the value is negative; a denominator of zero raises.", "quantifier": "all contents of the nine bytes of a radical", "why_tests_cant": "Four fields of three digits give more than 10^14 radicals, and the error is largest where the two roots almost cancel.", "anchors": ["tivars/types/real.py:TIRealRadical.decimal", "tivars/types/real.py:TIRealRadical.sign"]}
{"id": "C115", "title": "Negating a number gives the number of opposite value", "statement": "`-number` is a number of the same kind with the same name, version and flags and the opposite value and sign; it is not equal to the number, and negating it again gives one that is.", "quantifier": "every entry of every kind of real number, every content of its nine bytes", "why_tests_cant": "There are 2^72 contents for each of six kinds, not all of them made of digits.", "anchors": ["tivars/types/real.py:RealEntry.__neg__", "tivars/types/real.py:TIReal.decimal", "tivars/types/real.py:TIRealPi.decimal", "tivars/types/real.py:TIRealRadical.decimal", "tivars/var.py:TIEntry.__copy__"]}
{"id": "C116", "title": "An image saved with the Pillow plugins opens with the same size and pixels", "statement": "Saving an image with one of the three plugins gives a file that Pillow hands to the plugins and that the same plugin opens, with the size of the image and its pixels if the calculator has their colours, and else the nearest; an image of another size is refused, and so is opening the file as another kind of picture.", "quantifier": "all pixels of images of any size, all three plugins, all names of eight bytes, all environments and models", "why_tests_cant": "A picture has up to 131670 components of a byte each, and the file passes through the arrays of Pillow and numpy, the constructor, the export, the loader of files and the coercion of entries.", "anchors": ["tivars/PIL/common.py:TIImageFile._open", "tivars/PIL/common.py:TIDecoder.decode", "tivars/PIL/common.py:TIEncoder.encode", "tivars/PIL/common.py:accept"]}
{"id": "C117", "title": "Flags and models compare as the numbers they stand for", "statement": "Flags made from any assignment of numbers to bits have whole bytes, are the number with the bits of odd value, and print as its binary digits; after an update with any numbers they still are such. All four comparisons of flags are those of these numbers, and all four comparisons of models are those of their places in the chronology.", "quantifier": "all flags of any width, all updates of them, all pairs of models, all orders of the models", "why_tests_cant": "Flags of any width have exponentially many values, and what the decorator fills in depends on what the base classes define.", "anchors": ["tivars/flags.py:Flags.__init__", "tivars/flags.py:Flags.__gt__", "tivars/flags.py:Flags.__int__", "tivars/flags.py:Flags.__str__", "tivars/models/model.py:TIModel.__ge__"]}
{"id": "C118", "title": "Loading a complex number of Python stores both of its parts", "statement": "Loading a complex number with finite parts into a complex entry stores both parts, each in a part of the kind that the entry has, kept to 14 digits; class and type follow the imaginary part; nothing else changes. A part whose exponent does not fit raises OverflowError, and the entry is as before.", "quantifier": "all pairs of finite floats, all contents of the entry", "why_tests_cant": "Two floats have 2^128 values, and the kinds of the parts, the overflow of either and the order of the assignments all matter.", "anchors": ["tivars/types/complex.py:TIComplex.load_complex", "tivars/types/complex.py:RealPart.set", "tivars/types/complex.py:ImaginaryPart.set", "tivars/types/real.py:RealEntry.load_float"]}
{"id": "C119", "title": "float, int and complex of a number are the nearest float, its whole part and the pair of its parts", "statement": "`float(number)` is the binary float of 53 bits nearest to the number stored in the nine bytes, in case of a tie the even one; `int(number)` is the whole part of the number; `complex(number)` has the floats nearest to the two parts. The same holds of the decimal value of radicals and multiples of pi.", "quantifier": "all nine bytes of digits with all exponents and signs, all classes of real numbers, all pairs of parts", "why_tests_cant": "There are 10^14 mantissas with 256 exponents each, and correct rounding fails, when it does, at single values.", "anchors": ["tivars/types/real.py:RealEntry.float", "tivars/types/real.py:RealEntry.__int__", "tivars/types/complex.py:ComplexEntry.complex"]}
{"id": "C120", "title": "A number written to JSON is read again as the same number", "statement": "`json_number()` of a number is a float or a text such that `TIReal(...)` of it has the same nine bytes and gives no warning; whole numbers written as integers also come back. With that, the dictionary of a plain graph database loads back into any database of its class: all bytes are the same and there is no warning.", "quantifier": "all numbers of 14 digits with all exponents and signs; all plain function, parametric and polar databases with such numbers", "why_tests_cant": "There are 10^14 mantissas with 256 exponents each; the shortest text that names a float, the rounding to 53 bits and the cut to 14 digits have to fit together.", "anchors": ["tivars/types/real.py:RealEntry.json_number", "tivars/types/real.py:RealEntry.load_float", "tivars/types/real.py:TIReal.load_decimal", "tivars/types/gdb.py:TIMonoGDB.load_dict", "tivars/types/gdb.py:TIMonoGDB.dict"]}
{"id": "C121", "title": "An entry made from another entry is equal to it", "statement": "`cls(entry)` for an entry of class `cls` whose content agrees with its class gives an entry with the same type, name, version, archived flag and data; the other arguments do not matter, and nothing suggests corruption.", "quantifier": "all entries of all classes with any content, all names, versions and flags given besides", "why_tests_cant": "The constructor sets defaults, loads, coerces the class, computes a version and, for graph databases, sets colours; what survives depends on the order of these for every class.", "anchors": ["tivars/var.py:TIEntry.__init__", "tivars/var.py:TIEntry.load_bytes", "tivars/types/gdb.py:TIGDB.__init__"]}
{"id": "C122", "title": "mono() of a colour graph database is the same database without its colours", "statement": "`mono()` gives a database of the monochrome class of the same mode with the same type, name, archived flag, window, styles and equations and without the colours, whose length field counts its bytes, and there is no warning.", "quantifier": "all colour databases of all four modes, with any window, styles, equations and colours", "why_tests_cant": "Equations have any length, so that the colours are found at the end only; the numbers of bytes to cut differ for the four modes.", "anchors": ["tivars/types/gdb.py:TIFuncGDB.mono", "tivars/types/gdb.py:TIParamGDB.mono", "tivars/types/gdb.py:TIPolarGDB.mono", "tivars/types/gdb.py:TISeqGDB.mono"]}
{"id": "C123", "title": "A copy of a header or of a var is equal to it", "statement": "`copy(header)` has the same bytes as the header. `copy(var)` has the same name, header, model and entries, each with its class, and is equal to the var. Two headers are equal exactly if all their parts are, and two vars exactly if their entries have the same classes and bytes in the same order.", "quantifier": "all headers, all vars with any number of entries of any classes", "why_tests_cant": "A copy of a var is made by writing and loading it, so that every class and content has to survive the detour through bytes; the class of a loaded graph database depends on its length.", "anchors": ["tivars/var.py:TIHeader.__copy__", "tivars/var.py:TIHeader.__eq__", "tivars/var.py:TIVar.__copy__", "tivars/var.py:TIVar.__eq__"]}
{"id": "C124", "title": "A header joined with entries is the var with that header and these entries, and is independent of other vars", "statement": "`header | entries` is a var with that header, these entries in their order, the name of the first one and a model that the header targets, without a warning if the meta lengths agree; loading a file into one var changes no other var.", "quantifier": "all headers, all lists of entries, all choices of set.pop, all files", "why_tests_cant": "Which header object a var refers to is not visible in its bytes; only a later load into another var shows that it is shared.", "anchors": ["tivars/var.py:TIHeader.__or__", "tivars/var.py:TIEntry.export", "tivars/var.py:TIVar.__init__", "tivars/var.py:TIVar.load_bytes"]}
{"id": "C125", "title": "The JSON text of a graph database or of settings loads back as the same dictionary", "statement": "`json.loads(json.dumps(value))` is the value for every value of JSON, the text has printable ASCII characters only, and what is read is always such a value. If a graph database has a dictionary then `str(gdb)` is a text, and loading that text is loading the dictionary, with the same bytes for plain databases. A text that is no JSON, or no dictionary, is refused and leaves the database as it was. The text of settings loads into settings.", "quantifier": "all values of JSON of any depth, all texts, all graph databases and settings", "why_tests_cant": "Keys, nesting, escapes and the shortest texts of floats multiply to an endless number of texts; the tests load one dictionary.", "anchors": ["tivars/types/gdb.py:TIMonoGDB.__format__", "tivars/types/gdb.py:TIMonoGDB.load_string", "tivars/types/gdb.py:TIMonoGDB.load_dict", "tivars/types/settings.py:SettingsEntry.load_string", "tivars/types/settings.py:SettingsEntry.load_dict"]}
{"id": "C126", "title": "Loading no dictionary, or null, makes a graph database the standard one of its mode", "statement": "`gdb.load_dict()` and `gdb.load_string('null')` read the default dictionary that is shipped with the library and make any function, parametric, polar or sequence database, whatever it was before, the one of a reset: the standard window from -10 to 10 in steps of 1, the standard numbers of the mode, no equations, thick lines, the colours in their order. Name, version and archived flag are kept and there is no warning; databases without colours keep having none.", "quantifier": "all graph databases of all classes with any content, all token sheets, all names", "why_tests_cant": "What the database was before must not shine through anywhere in its bytes, and the numbers of the file are decimal while those of JSON are binary.", "anchors": ["tivars/types/gdb.py:TIMonoFuncGDB.load_dict", "tivars/types/gdb.py:TIMonoParamGDB.load_dict", "tivars/types/gdb.py:TIMonoPolarGDB.load_dict", "tivars/types/gdb.py:TIMonoSeqGDB.load_dict", "tivars/types/gdb.py:TIMonoGDB.load_dict"]}
{"id": "C127", "title": "A flash header is saved under its name with the extension of the model, and opening the file gives the header", "statement": "`header.extension(model)` is the extension of the newest listed model that is not newer than `model`, without a warning. `header.save()` writes the bytes of the header to the named file or to the name with that extension, and changes no other file; if it fails, nothing is lost. `open` on the file gives an equal header, for loaded and for new headers.", "quantifier": "all five classes, all models, all headers, all file names, all contents of the directory", "why_tests_cant": "The extension depends on the order of all models; whether a file can be opened again depends on the widths of the name and of the devices, which the three sample files of the tests do not vary.", "anchors": ["tivars/flash.py:TIFlashHeader.extension", "tivars/flash.py:TIFlashHeader.filename", "tivars/flash.py:TIFlashHeader.save", "tivars/flash.py:TIFlashHeader.open", "tivars/types/flash.py:TIApp.extensions"]}
{"id": "C128", "title": "The attributes of a flash header say what is in its sections and can be assigned", "statement": "The name, the devices, the device type, the type ID, the data and the license of a header are those in its sections: text without padding, pairs of bytes, the first two bytes, raw data or blocks as the flag says. Assigning a value that fits to any of them stores it, changes nothing else, can be read back and keeps the header loadable; other values are refused.", "quantifier": "all headers of all classes, all values", "why_tests_cant": "Each attribute is a view of a section of another width; whether assignments work depends on the Python type of the section, which differs between the kinds of files of the library.", "anchors": ["tivars/flash.py:FlashDevices", "tivars/flash.py:FlashData", "tivars/flash.py:TIFlashHeader.device_type", "tivars/flash.py:TIFlashHeader.type_id", "tivars/flash.py:TIFlashHeader.data", "tivars/flash.py:TIFlashHeader.name", "tivars/types/flash.py:TILicense.license"]}
{"id": "C129", "title": "The dictionaries of graph databases and the schema shipped with the library agree", "statement": "The dictionary of every graph database conforms to `gdb.schema.json`, and so do the four default dictionaries. Every dictionary that conforms can be loaded into a database of its mode, all values in it have kinds and names that the code knows, and the database then says what the dictionary says.", "quantifier": "all graph databases of all classes with a dictionary, all values of JSON that conform to the schema, all token sheets", "why_tests_cant": "The schema admits endlessly many dictionaries and the tests of the library never use it; agreement needs each key of the schema compared with each key of the code.", "anchors": ["tivars/types/gdb.schema.json", "tivars/types/gdb.py:TIMonoGDB.dict", "tivars/types/gdb.py:TIGDB.dict", "tivars/types/gdb.py:TIMonoGDB.load_dict", "tivars/types/gdb.py:TIGraphedEquation.load_dict"]}
{"id": "C130", "title": "Numbers print with a chosen number of decimals, also for typing and inside lists and matrices", "statement": "`format(number, '.Nf')` is the value of the number with exactly `N` decimals, rounded to the nearest and in case of a tie to an even last digit; loading the text gives the number printed. `.Nt` gives the same text as keys of a calculator: `~` for negation and `[i]` for the unit of complex numbers. Lists and matrices apply both to their elements.", "quantifier": "all numbers N of decimals, all real and complex numbers of all kinds, all lists and matrices", "why_tests_cant": "A tie needs a number whose digits end in 5 just behind the last decimal; the number of decimals is unbounded, and each kind of number has its own way to its decimal value.", "anchors": ["tivars/types/real.py:RealEntry.__format__", "tivars/types/complex.py:ComplexEntry.__format__", "tivars/types/list.py:TIList.__format__", "tivars/types/matrix.py:TIMatrix.__format__"]}
{"id": "C131", "title": "The name given to an entry is stored as its tokens and reads back as them", "statement": "Assigning a name to an entry stores the codes of the tokens of the name in eight bytes, padded with zeros, changes nothing else, and reading the name gives the names of these tokens. Names of matrices, equations, strings, pictures and graph databases are read with the longest names of tokens and warn unless they begin with the byte of their type; others are read with the shortest. Equations may be called `u`, `Y1`, `{Y1}`, `X1T}` and so on; strings may be spelled in any case; capital thetas are small ones. A text that is not made of tokens raises `ValueError` and changes nothing; names of more than eight bytes are cut. Assigning the name an entry has changes nothing if the text shown reads as its tokens. Settings have names in Latin-1.", "quantifier": "all entries of all classes except lists and images, all names (of strings: in ASCII), all tables of tokens whose codes are prefix-free and whose names are not empty", "why_tests_cant": "Which tokens a name is read as depends on all names of all tokens at once; the token sheet has hundreds of them and the spelling differs between types.", "anchors": ["tivars/tokenizer/__init__.py:Name.set", "tivars/tokenizer/__init__.py:TokenizedString.get", "tivars/types/tokenized.py:TIEquation.name", "tivars/types/tokenized.py:TIString.name", "tivars/data.py:Section._set_raw", "tivars/var.py:TIEntry.name"]}
{"id": "C132", "title": "A list is stored under the name it is given and keeps the name it shows", "statement": "Assigning a name to a list stores the name in capitals: `L1` to `L6` as the tokens of the six built-in lists, `IDList` as its token, other names behind the byte that names of lists begin with. A name longer than five characters gives a warning. Reading gives the name, and assigning the name a list shows changes nothing.", "quantifier": "all lists, all names of letters, digits and theta, all tables of tokens", "why_tests_cant": "The tests of the library read the names of two files and assign none; which tokens a name becomes depends on the whole token sheet.", "anchors": ["tivars/types/list.py:ListName.get", "tivars/types/list.py:ListName.set", "tivars/types/list.py:TIList.name", "tivars/tokenizer/__init__.py:Name.set"]}
{"id": "C133", "title": "Loading damaged bytes warns and never raises", "statement": "`load_bytes` of an entry, a var or a flash header accepts every byte string: whatever is wrong with it - cut off, wrong lengths, wrong checksum, wrong type, too little data for the type - is reported by warnings, and no exception leaves `load_bytes`.", "quantifier": "all byte strings; all classes of entries and flash headers; all vars", "why_tests_cant": "There are unboundedly many damaged files; whether one raises depends on how the length fields, the type byte and the checks of each class interact, which the few files of the tests do not exercise.", "anchors": ["tivars/var.py:TIEntry.load_bytes", "tivars/var.py:TIVar.load_bytes", "tivars/flash.py:TIFlashHeader.load_bytes", "tivars/types/list.py:TIList.load_bytes", "tivars/types/complex.py:ComplexEntry", "tivars/data.py:Boolean", "tivars/types/tokenized.py:TIAsmProgram"]}
{"id": "C134", "title": "Every existing file can be opened", "statement": "`TIEntry.open`, `TIVar.open` and `TIFlashHeader.open` of a file that exists return an object, whatever is in the file; damage is reported by warnings, and no file is changed.", "quantifier": "all contents of files, all classes, all file names", "why_tests_cant": "What happens at the end of a file depends on the position that each look-ahead leaves behind, also for files shorter than a header; and files behave differently from in-memory streams, because a file cannot be left before its start; the tests read complete files.", "anchors": ["tivars/var.py:TIEntry.open", "tivars/var.py:TIEntry.next_entry_length", "tivars/var.py:TIVar.open", "tivars/flash.py:TIFlashHeader.open", "tivars/flash.py:TIFlashHeader.next_header_length"]}
{"id": "C135", "title": "A new entry has the name it is given and by default the first name of its type", "statement": "The constructor of an entry names it as assigning the name would, with the same warnings, and fails with the same exception if the name is not made of tokens; all other fields are blank. `cls()` without arguments gives the first name a calculator offers for the type - `A`, `L1`, `[A]`, `Y1`, `Str1`, `Pic1`, `Image1`, `GDB1`, the fixed names of settings - stored with the codes calculators use, archived for the types that live in the archive, with no warning.", "quantifier": "all classes of entries but graphed equations, all names, versions and archive flags, all tables of tokens", "why_tests_cant": "How the default text of each class is read depends on the whole token sheet and on the reading mode, which differs between classes; the tests construct few entries with a name and compare few of them.", "anchors": ["tivars/var.py:TIEntry.__init__", "tivars/types/list.py:TIList.__init__", "tivars/types/matrix.py:TIMatrix.__init__", "tivars/types/tokenized.py:TIEquation.__init__", "tivars/types/tokenized.py:TIString.__init__", "tivars/types/picture.py:PictureEntry", "tivars/types/gdb.py:TIMonoGDB.__init__", "tivars/types/settings.py:SettingsEntry"]}
{"id": "C136", "title": "A program is taken for an assembly program exactly if it is one", "statement": "A program is loaded as an assembly program exactly if it begins with one of the three tokens that mark compiled code (`BB 6D`, `EF 69`, `EF 7B`) or its text ends with the lines `End`, `0000` and `End`, as programs for the TI-83 do; and as a protected program exactly if its type is 6. Everything else about it is loaded as it was saved. The text of a program is the names of its tokens, with one warning if it is an assembly program and none otherwise.", "quantifier": "all programs made of tokens, of both types, all token sheets; for the negation all programs containing the bytes of a mark", "why_tests_cant": "The marks are looked for as bytes, not as tokens, so that it depends on all neighbouring tokens and on the whole sheet whether two bytes of a program make a mark; the tests have two assembly programs.", "anchors": ["tivars/types/tokenized.py:TIProgram.coerce", "tivars/types/tokenized.py:TIProgram.string", "tivars/types/tokenized.py:TIAsmProgram", "tivars/types/tokenized.py:TIProtectedProgram"]}
{"id": "C137", "title": "A container of tokens finds every token by its code and by each of its names", "statement": "A container can be made of a sheet exactly if every token has names in English and in every other language of the sheet, the indices name only codes of the sheet and there is an English index; otherwise its constructor raises. Looking up a code gives the token with that code; looking up a name of a token, in whatever language, gives that token; everything else raises `KeyError`. The trie of a language splits texts exactly as the index of names of that language tells, and no language means English.", "quantifier": "all sheets of tokens with any number of languages; all keys; all texts", "why_tests_cant": "The sheet is a data file that changes without the code; which token a name finds depends on all tokens in all languages. The tests look up one name and one code, and encode a few texts.", "anchors": ["tivars/trie.py:TITokens.__init__", "tivars/trie.py:TITokens.__getitem__", "tivars/trie.py:TITokenTrie.from_tokens", "tivars/trie.py:TITokenTrie.insert", "tivars/token.py:TIToken.__init__"]}
{"id": "C138", "title": "The equation taken out of a graphed equation is the one put in", "statement": "`equation()` of an equation of a graph database gives the equation itself: its name, its tokens and everything but the drawing flags, with the version its tokens need and without a warning about damage. Loading an equation into a graphed equation and taking it out gives the same data; taking the equation out and loading it back changes nothing.", "quantifier": "all graphed equations that can be saved, of every name, version and archive flag, and all equations loaded into them", "why_tests_cant": "The equation is made by cutting a byte out of the saved entry and loading the rest, whose length fields are then wrong on purpose; that the rest is read at the right places depends on the flash bytes and on all checks that loading makes.", "anchors": ["tivars/types/gdb.py:TIGraphedEquation.equation", "tivars/types/gdb.py:TIGraphedEquation.load_equation", "tivars/var.py:TIEntry.load_bytes"]}
{"id": "C139", "title": "Every pixel of a picture is read from and written to the place where calculators keep it", "statement": "The array of a black and white picture has 63 rows of 96 pixels, that of a colour picture 165 rows of 266 and that of an image 83 rows of 133; the pixel in column x of row y comes from exactly the bits calculators show there: rows of twelve bytes from the top, highest bit leftmost, set for black; rows of 133 bytes from the top, two colour numbers per byte, upper half left; rows of 268 bytes from the bottom, 16 bits per pixel with the lower byte first. Going through a picture gives the pixels in reading order. Loading an array puts every pixel, or its nearest representable colour, into these places. With too few data both raise `IndexError`.", "quantifier": "all data of pictures of any length; all arrays of pixels of the right shape", "why_tests_cant": "There are 2 to the power of 177952 images; a mistake of rows, columns, halves or byte order that is made in both directions passes every round trip; the tests compare arrays and bytes of a few files with what the same code reads.", "anchors": ["tivars/types/picture.py:TIMonoPicture.array", "tivars/types/picture.py:TIMonoPicture.load_array", "tivars/types/picture.py:TIPicture.array", "tivars/types/picture.py:TIPicture.load_array", "tivars/types/picture.py:TIImage.array", "tivars/types/picture.py:TIImage.load_array", "tivars/types/picture.py:PictureEntry.__iter__"]}
{"id": "C140", "title": "Going through a list or matrix gives its elements in order, as many as it says", "statement": "Iterating over a list gives the numbers stored in its data in order, each with its class, and as many as the length field says; iterating over a matrix gives the numbers of `matrix()` row by row, as many as `size`.", "quantifier": "all lists and matrices whose data are numbers, of any length, with any rest that is too short for a number", "why_tests_cant": "Lists have up to 65535 elements and matrices any sides; what counts as an element is decided by grouping an iterator by nine or eighteen bytes and then by rows, and tests look at complete ones of a few elements only.", "anchors": ["tivars/types/list.py:TIList.__iter__", "tivars/types/list.py:TIList.list", "tivars/types/matrix.py:TIMatrix.__iter__", "tivars/types/matrix.py:TIMatrix.matrix", "tivars/types/matrix.py:TIMatrix.size"]}
{"id": "C141", "title": "A text loaded into a program, string or equation comes back from its file", "statement": "Text loaded into a program, a string or an equation, saved to a file and opened again with the class gives an entry with the same name, archive flag, tokens and - if each piece of the text is the name by which its token is shown - the same text; nothing is reported as damaged and no other file is changed. Only the class can be another one, that of assembly programs.", "quantifier": "all texts without byte literals, all token sheets in which codes are prefix-free, all programs, strings and equations of every name and archive flag, all file names without a dot, all file systems", "why_tests_cant": "The version byte of the entry is computed from the newest token of the text and the length of the entry from all of them; the file is read wrongly exactly when the two happen to agree. Tests round-trip a few programs.", "anchors": ["tivars/types/tokenized.py:TokenizedEntry.load_string", "tivars/types/tokenized.py:TokenizedEntry.get_version", "tivars/var.py:TIEntry.save", "tivars/var.py:TIEntry.open", "tivars/var.py:TIEntry.load_bytes"]}
{"id": "C142", "title": "Numbers, lists, matrices and pictures come back from their files", "statement": "A decimal literal loaded into a real number, numbers loaded into a list, a rectangular array of numbers loaded into a matrix, and an array of representable pixels loaded into a picture or image, saved to a file and opened again with the class, are read back: the value of the literal cut to 14 digits, the same numbers in the same order, the same pixels. Nothing is reported as damaged.", "quantifier": "all decimal literals, all lists of numbers of the class and all matrices that fit a file, all arrays of pixels of the right shape; every name and archive flag, all file names without a dot, all file systems", "why_tests_cant": "Each of the steps - storing, framing with lengths and checksum, guessing flash bytes, choosing the class from the content - has cases in which it goes wrong; that they do not meet for any of these values needs all of them at once.", "anchors": ["tivars/types/real.py:TIReal.load_string", "tivars/types/list.py:TIList.load_list", "tivars/types/list.py:TIList.coerce", "tivars/types/matrix.py:TIMatrix.load_matrix", "tivars/types/picture.py:TIMonoPicture.load_array", "tivars/types/picture.py:TIPicture.load_array", "tivars/types/picture.py:TIImage.load_array", "tivars/var.py:TIEntry.save", "tivars/var.py:TIEntry.open"]}
{"id": "C143", "title": "A group comes back from its file with everything in it", "statement": "A group made of entries, saved to a file and opened again as a group, ungroups into entries with the types, names, versions, archive flags and data of those it was made of, in the same order. The group keeps its name and its version, nothing is reported as damaged and no other file is changed.", "quantifier": "all lists of entries that can be grouped, nested to any depth, whose data fit a file; all names, all file names without a dot, all file systems", "why_tests_cant": "Every group is archived, so that its flash bytes are a number of at least 32768; the file is misread exactly when that is the length of the group. Tests group a few small entries.", "anchors": ["tivars/types/group.py:TIGroup.group", "tivars/types/group.py:TIGroup.ungroup", "tivars/types/group.py:TIGroup.get_version", "tivars/var.py:TIEntry.save", "tivars/var.py:TIEntry.open", "tivars/var.py:TIEntry.load_bytes"]}
{"id": "C144", "title": "Opening a saved entry warns exactly of what is unusual about it", "statement": "Saving an entry to a file and opening it with its class gives the entry and, in this order, one warning each for a version that the class does not have, missing flash bytes where the class needs them, a length field that is not the length of the data, codes that are no tokens, a version other than the one the tokens need, and a number of elements other than that of the elements. Opening is silent exactly if none of these holds.", "quantifier": "all well-formed entries of the classes that loading does not change, all versions, archive flags, contents and lengths that fit a file, all names, all file systems, all token sheets", "why_tests_cant": "A warning that is missing or superfluous for some lengths or versions does not change the data, and no test of the library looks at warnings.", "anchors": ["tivars/var.py:TIEntry.load_bytes", "tivars/var.py:TIEntry.open", "tivars/var.py:SizedEntry.load_bytes", "tivars/types/tokenized.py:TokenizedEntry.load_bytes", "tivars/types/list.py:TIList.load_bytes", "tivars/types/matrix.py:TIMatrix.load_bytes"]}
{"id": "C145", "title": "A graph database described by a dictionary comes back from its file", "statement": "A dictionary loaded into a graph database, which is then saved to a file and opened again with its class, gives the database that the dictionary describes: its mode, settings, numbers, equations, styles and colours, in an entry of the same class, name, version and archive flag. No other file is changed, and opening reports nothing but a version that the class does not have.", "quantifier": "all dictionaries in which everything is known and meant for the kind of database, all eight kinds, equations of any number of tokens that fit a file, all earlier contents, names, flags and file systems", "why_tests_cant": "The position of everything after the first equation depends on the lengths of all equations before it, and which class the file is opened as on the mode byte and on what follows the last one; tests load one dictionary and do not look at warnings.", "anchors": ["tivars/types/gdb.py:TIMonoGDB.load_dict", "tivars/types/gdb.py:TIMonoGDB.coerce", "tivars/types/gdb.py:TIGDB.coerce", "tivars/var.py:TIEntry.save", "tivars/var.py:TIEntry.open", "tivars/var.py:SizedEntry.load_bytes"]}
{"id": "C146", "title": "A text loaded into an entry of no class of its own makes it what the text denotes", "statement": "A text given to an entry whose class has no format of its own makes it an entry of the first registered class that accepts the text, with what that class makes of it and without any warning; numbers, fractions, sums of roots and multiples of pi become entries of their classes that hold the value, lists and matrices become lists and matrices, and other text that can be tokenised becomes an equation. A text that no class accepts is refused with ValueError, and the entry is unchanged.", "quantifier": "all texts, all token sheets, all default names, all earlier contents of the entry, whatever the constructors of the classes do", "why_tests_cant": "The result depends on the order in which modules are imported and on every class before the right one refusing the text; tests construct entries through their own classes.", "anchors": ["tivars/var.py:TIEntry.load_string", "tivars/var.py:TIEntry.register", "tivars/var.py:TIEntry.load_bytes", "tivars/types/matrix.py:TIMatrix.load_string", "tivars/types/list.py:TIList.load_string", "tivars/types/real.py:TIReal.load_string"]}
{"id": "C147", "title": "Each type ID has the class it belongs to, in whatever order the modules are imported", "statement": "Registering a class makes its ID, or the one given in its place, mean that class and changes no other ID; among several classes with the same ID the last one registered counts, and it takes the place of the one before it. After importing the library in any order, every type ID of calculators means its class and every other ID means none, and every class is found under its own ID except graphed equations, which have the one chosen for them. The same holds for flash headers. Finding the class of a list by going through the registry gives what looking up its first element gives.", "quantifier": "all registries, all classes, with and without a given ID, all sequences of class statements, all orders of the statements of the library, all IDs, all lists", "why_tests_cant": "Tests import the library in one order, and two classes that claim one ID show only for the entries of the class that loses.", "anchors": ["tivars/var.py:TIEntry.register", "tivars/var.py:TIEntry.get_type", "tivars/var.py:TIEntry.__init_subclass__", "tivars/flash.py:TIFlashHeader.register", "tivars/flash.py:TIFlashHeader.get_type", "tivars/types/list.py:TIList.coerce", "tivars/types/complex.py:ComplexEntry.load_string"]}
{"id": "C148", "title": "Numbers of every kind come back from their files", "statement": "A real number of any kind - decimal, undefined, fraction, radical, multiple of pi - that was loaded from a text, and a complex number with parts of any kinds that was loaded from a text or from floats or had a number assigned as its imaginary part, saved to a file and opened again with the class it then has, is the same entry: class, type, name, version, archive flag and all bytes. Nothing is reported as damaged and no other file is changed.", "quantifier": "all entries of numbers with flash bytes and a version their class is used with, all earlier contents, all texts and floats that are accepted, all assigned numbers, all file names without a dot, all names, all file systems", "why_tests_cant": "Loading a text into a complex number may change the kind of either part, with it the class, the type byte and the extension of the file; the tests read one file of each of a few kinds and save no numbers.", "anchors": ["tivars/types/real.py:TIReal.load_string", "tivars/types/real.py:TIRealRadical.load_string", "tivars/types/complex.py:ComplexEntry.load_string", "tivars/types/complex.py:ComplexEntry.coerce", "tivars/types/complex.py:TIComplex.load_complex", "tivars/var.py:TIEntry.save", "tivars/var.py:TIEntry.open"]}
{"id": "C149", "title": "Reading, writing and reading again gives the same entry", "statement": "Whatever bytes an entry was loaded from, damaged ones included, what it writes afterwards loads - into an entry of the same class - to the very same entry, and the second time nothing is wrong with the lengths and the header. The same holds for opening a file, saving what was opened and opening that. This is false of the code for four kinds of bytes; it holds when the header has one of its two lengths, all promised data is there and the type the entry ends up with leads to the same class again.", "quantifier": "all byte strings and all files that load, all classes that can be loaded into, all entries loaded into, all file names and file systems", "why_tests_cant": "The tests read intact sample files. That a repaired file stays repaired needs the second reading of bytes that were damaged at first, for each kind of damage.", "anchors": ["tivars/var.py:TIEntry.load_bytes", "tivars/var.py:TIEntry.bytes", "tivars/var.py:TIEntry.coerce", "tivars/var.py:TIEntry.open", "tivars/var.py:TIEntry.save", "tivars/types/complex.py:ComplexEntry.coerce", "tivars/types/gdb.py:TIGraphedEquation.coerce"]}
{"id": "C150", "title": "The text of a program, string or equation loads back as the same tokens", "statement": "The text that string() shows of a program, string or equation, loaded into it again with load_string, gives the same data and so the same tokens. This is false of tokens whose names together spell the name of another token, of tokens with long names inside string literals and of strings that start or end with a quotation mark. It holds exactly if the text is read - by maximal munch, by minimal munch, or in smart mode as the context of each token demands - as tokens with the codes of the data; in particular for every entry of tokens whose names start no other name and have no other name at their start. Nothing but the version can change.", "quantifier": "all programs, protected programs, strings and equations with data of fewer than 65536 bytes, all token tables without empty names, the four modes", "why_tests_cant": "Whether the names of adjacent tokens can be read differently depends on the whole table and on everything before them; tests round-trip a few programs typed by people.", "anchors": ["tivars/types/tokenized.py:TokenizedEntry.load_string", "tivars/types/tokenized.py:TokenizedEntry.encode", "tivars/types/tokenized.py:TIString.load_string", "tivars/types/tokenized.py:TIString.string", "tivars/tokenizer/encoder.py:encode", "tivars/tokenizer/decoder.py:decode"]}
{"id": "C151", "title": "Reading, writing and reading again gives the same var", "statement": "A var that is loaded from any bytes has the first 53 of them as its header, filled up with zeros, and as its entries what the pieces of the file, as its length fields cut it, give one by one. Written and read again it is the very same var, and the second time nothing is wrong with the lengths, the headers, the cuts and the checksum, however damaged the first file was. The same holds for opening a file, saving what was opened and opening that. The second part is false of the code for files with an entry for which C149 is false; it holds when every piece has one of the two header lengths, has all the data it promises and ends up with a type that leads to the same class again, and all entries fit one file.", "quantifier": "all byte strings and all files that load as a var, any number of entries of all classes, all vars without a model loaded into, all file names and file systems", "why_tests_cant": "The tests read intact sample files. Where the second entry begins depends on what the first one says of itself, and that a repaired file stays repaired needs the second reading of a file that was damaged at first.", "anchors": ["tivars/var.py:TIVar.load_bytes", "tivars/var.py:TIVar.bytes", "tivars/var.py:TIVar.open", "tivars/var.py:TIVar.save", "tivars/var.py:TIEntry.load_bytes", "tivars/var.py:TIEntry.next_entry_length", "tivars/var.py:TIHeader.load_bytes"]}
{"id": "C152", "title": "The header of a file can be read and reused on its own", "statement": "Opening a file as a header gives its first 53 bytes, filled up with zeros, and never warns; an empty file gives the header of a new var and a missing one FileNotFoundError. If the file opens as a var, it is the header of that var. The header of every var that is saved successfully, and the header given when an entry is saved, is what opening the file as a header gives. Loading a header from a file object takes the 53 bytes at its position, or what is left, and moves the position behind them.", "quantifier": "all files and file systems, all vars whose entries can be written, loadable or not, all entries with data, all headers with parts of their widths, all file names, all positions", "why_tests_cant": "The tests open and load headers of one complete program file; a header that is padded or cut wrongly differs for short files, for other positions and for other vars, which no finite set of files covers.", "anchors": ["tivars/var.py:TIHeader.open", "tivars/var.py:TIHeader.load_from_file", "tivars/var.py:TIHeader.load_bytes", "tivars/var.py:TIHeader.bytes", "tivars/var.py:TIVar.open", "tivars/var.py:TIVar.save", "tivars/var.py:TIEntry.save", "tivars/var.py:TIEntry.export"]}
{"id": "C153", "title": "The meta section that an entry reports is the one it writes", "statement": "The meta section of an entry, as the entry and its raw container report it, is the part of its bytes between the meta length and the second length of the data, and has as many bytes as the meta length says. This holds of the raw container for all entries and of the entry itself with flash bytes; it is false of every entry without flash bytes, whose meta section has 13 bytes instead of 11.", "quantifier": "all entries whose sections have their widths and whose data fit an entry", "why_tests_cant": "The test of the sections compares both meta sections for one program, which has flash bytes; there they agree, and the disagreement is in the entries without flash bytes.", "anchors": ["tivars/var.py:TIEntry.meta", "tivars/var.py:TIEntry.Raw.meta", "tivars/var.py:TIEntry.Raw.bytes", "tivars/var.py:TIEntry.Raw.flash_bytes"]}
{"id": "C154", "title": "A cleared var is an empty file with the same header", "statement": "Clearing a var keeps its header and its model and leaves no entries; the var is then falsy, and a var is truthy exactly if it has an entry. A cleared var is written as its header and four zero bytes, and these load, whatever the var loaded into had before, as a var with that header and no entries, without a warning. Loading a var from a file object loads what follows its position.", "quantifier": "all vars with any entries, all headers with parts of their widths, all vars without a model loaded into, all file objects", "why_tests_cant": "The test of truthiness clears one var and asks for its truth value only; neither its bytes nor reading them again is looked at, and the claim is about every header and every previous state.", "anchors": ["tivars/var.py:TIVar.clear", "tivars/var.py:TIVar.is_empty", "tivars/var.py:TIVar.__bool__", "tivars/var.py:TIVar.load_var_file", "tivars/var.py:TIVar.bytes", "tivars/var.py:TIVar.load_bytes"]}

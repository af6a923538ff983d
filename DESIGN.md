# Design

Subject: `MetabuildDev/ifc_rs` (crate `ifc_rs` and derive crate `ifc_rs_verify_derive`), read as text in `/repo`.
Paths below are relative to `/repo/ifc_rs/src`.

## 1. How the code is modelled

* Text is `List Char`. A reader is a total function `List Char → Res α` with
  `Res α = ok value rest | back | cut | panic` (winnow's `Backtrack` and `Cut` errors, and a Rust panic, kept apart).
* The winnow 0.6 combinators the crate uses (`alt`, `delimited`, `repeat_till`, `separated`, `opt`, `peek`, `not`,
  `take_while`, `dec_uint`, `dec_int`, `float`, `any`, literals) are external code; they are modelled by
  definition in `Verif/Model/Parser.lean` after the winnow 0.6 documentation/semantics. They are part of the trusted base.
* The ~75 entity types all have the same shape: `seq!{ KEYWORD( field , field … ); }` plus a `Display` that prints
  the same. They are modelled by *one* inductive type of field grammars (`Fld`) with a denotation (`Fld.Val`),
  a generic reader, a generic writer and a generic list of checked references, and a *table* (`Model/Schema.lean`)
  with one row per entity citing the lines of struct, parser, Display and `ifc_types`. The generic
  reader/writer are the code of `parser/{optional,list,bool,integer,real,string,comma}.rs`, `id/*.rs`.
  So a theorem about the generic functions and every table row is a theorem about all entities.
* `DataMap` is a list of (id, entity) sorted strictly by id (`BTreeMap`), entities are `Σ row, values` or an unknown text.
* Verification is the code generated by `ifc_rs_verify_derive` per field kind.
* f64 is modelled concretely (sign, integer mantissa, exponent; NaN; infinities); decimal→double is
  round-to-nearest-even of the exact rational, `Display` is the shortest round-tripping decimal and `{:.14E}`
  is correctly rounded, as documented for Rust std (std is trusted for this).
* Builders: state = DataMap plus the sets/maps the Rust builder structs hold; each builder method is a function
  on the state. Random GUIDs, the clock, and hash iteration orders are parameters (universally quantified).
* Panics are values, never undefined behaviour of the model.

## 2. Statements

Every property file `Verif/Props/*.lean` holds the specification (small, independent of the reader: for instance the
set of spellings of a value is an inductive relation / explicit text, map laws refer to `Option`-valued functions,
verification to an explicit "reference points to allowed kind" predicate) and the theorems; helper lemmas live in `Verif/Proofs/*`.
Where a property is false of the code a theorem states the negation with a witness and a `_partial` theorem
states what does hold, with the missing part named in MANIFEST.json.

## 3. Per property

| id | modelled | proof |
|----|----------|-------|
| C01 | `id/ifc_uuid.rs` bit code on 16 bytes / 22 chars | bytewise bit lemmas over finite tables (`decide`), lifted to all ids |
| C02 | same | exact characterisation by first character |
| C03 | `parser/string.rs` with sequential replace | induction on strings; replace of non-overlapping patterns |
| C04 | same | same |
| C05 | primitives and enumeration tables | digit induction; prefix-freeness of every table by kernel evaluation |
| C06 | `optional.rs`, `list.rs` | induction on lists, mutual with grammar |
| C07 | generic codec + schema table | induction on grammar, row conditions by kernel evaluation |
| C08 | ordered choice of rows | keywords pairwise prefix-free (kernel evaluation) except 2D/3D pairs, argued by arity |
| C09 | `dummy.rs` and data section | induction on text |
| C10 | `p_space_or_comment*` | induction over layouts; a relation `Layout` of spellings |
| C11 | whole file (`lib.rs:83-135`, `meta/datamap/{de,}serialize.rs`) | induction over the written lines; each line by C07/C09; header by C23; references checked by C13 are unchanged by rereading |
| C12 | data section, `BTreeMap` insertion | every file of the relation `FileText` (Spec/File) reads as its list of lines; the map holds the last line of each id |
| C13 | `from_str`, derive macro | direct from definition of checks against independent predicate |
| C14 | whole `from_str` | witnesses; characterisation of panics |
| C15 | `get` | witness; conditional theorem |
| C16, C17, C18, C19 | `DataMap` | refinement to `Nat → Option Entity`, induction on histories |
| C20 | f64 model, `real.rs` | exactness of shortest decimal; the largest finite double and the midpoint above it for overflow |
| C21 | f64 model | rounding error bounds over ℚ |
| C22 | f64 model | witness; conditional |
| C23, C24 | header | print-then-read lemma per header part over an abstract rest; class `WritableHeader`, 27-entry schema table and list grammar in Spec/Header.lean; acceptance of schema lists as an iff; limits by witnesses |
| C25 | whole file | every reader only returns writable values (Proofs/Loaded, for all texts), so C11's argument applies to whatever was loaded; rereading is idempotent, so the second save is final; false without conditions, one witness for each |
| C26 | `timestamp.rs`; chrono range as constant | decision logic |
| C27 | `float` model; context lifting | cut propagation through every combinator of the data section |
| C48 | `time_from_string` (`meta/header/deserialize.rs:118-122`); chrono's RFC 3339 reader and conversion to UTC modelled | time texts, existing days and the minute count from year 1 in Spec/Time.lean (Gregorian rule, month table); conversion checked against the count; reader as an iff |
| C49 | the whole header reader (`meta/header/deserialize.rs`) | `HeaderText` in Spec/HeaderText.lean: the tokens in the order of ISO 10303-21, gaps, quoted texts, view definitions, instants; the reader succeeds exactly on these texts, as an iff built token by token |
| C28 | all builders, `to_step_file` and the reader | invariant over operations: every stored attribute points to a stored entity of the kind the builder wrote there (`Proofs/Sound*`), hence writable and accepted; the texts given must be without apostrophes and the person and organisation passed in without references (`Spec/Tidy.lean`); ids must be ones returned before. True exactly when no shading device was made; rejected otherwise. A name with an apostrophe turns its line into one of unknown meaning (witness) |
| C29–C33, C47 | all builders as scripts (`Model/Script.lean`), storey Drop, `build` | balance kept by every call: relations written + relations still to be written = relations asked for by the trace; the trace is tied to the script by `Spec/Trace.lean`; C30 also: each storey writes exactly one type relation per type used in it (`type_relations`) |
| C34 | same | the relations are functions of the trace up to order (`Done.same`), and the trace is a function of the script (C50); a witness that the stored models themselves differ |
| C50 | same | `Spec/Plan.lean` works out the ids from the script; the invariant `Live` (keys 1…n, every kept reference stored with the expected row) excludes each `unwrap` and counts what each call adds (`Proofs/Live*`). That programs making the same calls get the same ids: `Spec/SameCalls` says when two scripts make the same calls, and their plans are equal |
| C51 | same | `Spec/Told.lean` says for each call which entities with which values the model must have, read from the stored values alone; induction over the script with the invariant that elements made by calls have shapes of their own (`Apart`), so that a transform reaches one element only, and that later states keep everything but representations of transformed shapes (`After`) |
| C52 | same; `Spec/GlobalId.lean` collects the ids of an entity from its description | invariant over every builder function: ids drawn = ids in the model + ids in material relations still in the builder's tables + ids of objects being made, counted with multiplicity; injectivity is asked only of the ids drawn in the run, because there are 2^128 of them |
| C53 | `Model/Setters.lean`: every `fn call(mut self, …) -> Self` outside persons, organisations and units, as a table with the type, the name, the type of the argument and the change; `Spec/Setters.lean` gives the attributes of a value by their names in the standard and the attributes a call is about | refinement: for every call of the table, the list of attribute texts after the call is the old one with one position (two for the owner of a history) replaced; positions are compared with the names by evaluation |
| C54 | `Model/Ctors.lean`: every function making a value of one of the types, as a table with the type, the name, the parameters in the order in which they are used and the value made from them; `Spec/Ctors.lean` says which attribute of the standard a parameter is for and what the others are | refinement: for every function of the table, the list of attribute texts of the value is a list of sources (the id drawn, an argument, a fixed text) evaluated at the arguments; the sources are compared with the names of parameters and attributes by evaluation; running out of ids by induction over the arguments |
| C55 | the tables of C53 and C54 and the calls of C37 (on entities in `Model/Actors.lean`) together with the check of C13; `Spec/Typed.lean` lists the arguments the Rust types allow and the check does not, and says what honest arguments and programs are | invariant by induction over programs: the references of a value after a call are those it had and those of the argument, each with the types the check allows for it; the pairs of argument type and allowed types are compared with the list by evaluation, in both directions (everything not listed is accepted, everything listed is refused) |
| C56 | programs as in C55 whose plain arguments fit (`Spec/Saved.lean`), together with the whole-file round trip of C11 | the parts of a value that can be written wrongly are gathered generically over the field descriptions; every call keeps those the value had or adds those of the argument, every function making a value has exactly those of its arguments and the constant text `Model`; induction over programs gives writability, the reader never yields a text with an apostrophe, which gives the negative half for all texts |
| C57 | `Model/Mapping.lean`, `Model/Report.lean` (`itemsOf`, `printItems`); what is seen of a body and of turns in `Spec/Report.lean` | composed with C51: what an element that stands as wished gives when read; chains of transforms by induction, depth of nesting by a number of calls that suffices; `direction` is decided exactly, including where it fails; kinds only the project start makes by a quietness invariant over all commands |
| C58 | the whole of `examples/extractor.rs`, printing replaced by returning the data printed; recursion with an explicit number of nested calls, `more` if it does not suffice | built models: C57 with the relations of C29-C33 and C35, counted per storey; loaded models: all references used are checked ones (C13), cycles excluded by well-foundedness of `Within`, with the equivalence for `print_items`; witnesses of each failing case by evaluation of the loader |
| C59 | the functions of C57 once more | relations `IsAxis3`, `ProfileAt`, `IsSolid`, `TransformAt`, `IsMapped`, `DirectionOf`, ... between stored values and what is found, one constructor per way to be found; equivalence with the functions, from which the panics follow as the remaining cases |
| C60 | the example of C58 once more | relation `Reported`, inductive over the nesting of mapped items; equivalence with the example for some number of nested calls, the number being irrelevant once it suffices |
| C61 | `Model/Turn`: the setters of `TransformParameter`; quaternion times vector is a parameter | specification `Latest` over the list of vectors given; induction on the calls from the end |
| C62 | `Model/Normal`: `/`, `sqrt` (bit by bit search for the nearest double) and `normalize` as glam writes it | `/` and `sqrt` equivalent to relations `Quotient`, `Root` over rationals and reals; error analysis over the reals with half an ulp per operation; the wrong cases proved for all vectors beyond the bounds. Above 2^511 the result is the direction or the zero vector (overflow of the sum found by a rounding that stays finite up to 15/8 of 2^1023); a witness shows the direction is off below 2^-511, and nothing general is said between 2^-538 and 2^-511 |
| C63 | `Model/Examples`: the calls of builder.rs and roof.rs as scripts of `Model/Script`, with the ids passed on counted; `Model/ExampleApi`: building.rs as a program over the tables of functions of `Model/Ctors` and `Model/Setters` | the plan of a script does not depend on transforms (`Proofs/PlainPlan`), so it is computed; then C28, C50, C51 and C58 for these scripts. building.rs: the 44 entities spelled out (`Spec/BuildingExample`), equal to what the program makes by computation with the ids and times left open. Rotations are any functions; `normalize` is C62's |
| C64 | nothing new modelled; `Spec/Says`: which texts may be taken for a value, relation by relation, without the readers | every reader only accepts what its relation admits (`Takes`, `Proofs/Says`), by induction over attribute descriptions, lists of lines and the file; the converse for well-laid-out texts is C10, C11 and C23. Texts laid out otherwise may or may not load; where they load the theorem says as what |
| C65 | all writers (`Fld.print`, header, data section) against a grammar of ISO 10303-21 in `Spec/Exchange.lean` written as inductive predicates on texts | induction on attribute descriptions; a scanner of quotes and parentheses shows that a joined attribute list splits in one way, which gives the converse |
| C66 | the same writers against the IFC4 attribute table of C42 | a predicate on values beside each attribute form (`Meets`) shown equivalent to the form of the text; splitting as for C65 |
| C67 | the builders of C26–C28 (`Model/Script`), the writers, the tables of C66 and the differences of IFC4X3 ADD2 for the types the builders write (`Spec/Legible`) | C65's and C66's conditions split into one on shapes, shown for every entity a builder puts in by a step-by-step invariant (`Proofs/LegibleKinds`, `Proofs/LegibleRun`), and one on the numbers and lists at hand, left in the statement |
| C68 | the derive macro (`Model/Derive`) and the 91 declarations it is put on, generated from the sources by a script (`Model/Declarations`) | what becomes of a field by cases on its type and attributes; plans of all kinds compared with the shapes of their rows by the kernel, then a lemma on attribute lists carries this over to all values |
| C69 | the reader of the data section, all types, against the grammar of ISO 10303-21 (`Spec/Exchange`), with blanks and comments between all tokens (`Spec/RecordRead`) | a scanner of apostrophes, comments and parentheses: every text that spells an attribute leaves it where it stood, so a known type that reads a record reads it to its semicolon; a reader stops for good only at a number with a truncated exponent at a place where an attribute can begin, and no record of the grammar has one there (induction on the grammar); lines and file by induction. Witness files for the conditions |
| C70 | reader and writer of the data section together, against the same grammar | with the scanner of C69: in a record of the grammar no place outside strings and comments has a semicolon, and what stands between two apostrophes there is a string; by induction on the attributes everything read from such a text is written as the grammar has it, except infinite reals, and nothing is taken inline except a plane angle (an inline entity ends with a semicolon). Lines, file and second load by C69. Witnesses for the overflow and for the record that changes from unknown to known |
| C71 | `Model/Spin`: glam's `DQuat * DVec3`, `DQuat * DQuat`, `from_rotation_x`, `from_rotation_z` operation by operation on IEEE doubles, sine and cosine a parameter | specification over the reals: Rodrigues' formula `Vec.turned`, shown to be a rotation; error terms of each operation added up (`Nr`: a double within a multiple of 2^-53 of a real), the half-angle identities for the exact quaternion, perturbation of the quaternion by d; π by its first 20 digits. The stored operator (`Spec/Motion`: the map p ↦ p.x Axis1 + p.y Axis2 + p.z Axis3) with C62 and linearity |
| C72 | the whole of `Model/Builder` and `Model/Script` | specification `Spec/Signed`: the first four attributes of a root read off the schema row, the lists of kinds, the names of relations with `Decimal` (digits of a number) defined by itself; an invariant over all builder calls (`Sign.Keeps`: every entry but the owner history is marked, and so are the material relations still in the book), the project's start in two phases around the owner history. That the 59 kinds do occur: one program, run by the kernel |
| C73 | the extractor (`Model/Mapping`, `Model/Extractor`), the example of C58, writer and reader together | specification `Spec/Through`: on each result of a query, what it is with every real read back. One lemma per model function that it commutes with reading back (`Proofs/Through`), then the round trips of C11 and C25. The program with height 1/3 is run by the kernel |
| C74 | `Model/DataMap` (the changing calls of C17), `Model/File` (writer, loading, check) | specification `Spec/Edits`: the line of an entry, the text before and after its place. A map in order of ids splits at an id into the smaller and the greater ones, which a call leaves alone; loading a written model reduces to the check, of which C13 says when it passes |
| C75 | `Model/Output`: the example of C58 with its `println!`s; a run is the lines printed so far together with how it goes on. A line is its indentation and the values put into it | specification `Spec/Output`: the lines of a report, and what is left of a report if the sides of position-less rectangles and the places of unknown structures are forgotten. Function by function the run prints the lines of what the function of C58 returns; the lines are read back by splitting them at the lines that begin a storey, a structure, an opening and an item. The two witnesses are loaded and run by the kernel |
| C76 | nothing new: `fromStr`, `pIfc`, `pFooter` and `showIfc` on texts that are no whole file | specification `Spec/CutOff`: the end mark, what is left of a text, and the texts of a model. The footer only succeeds if the mark stands in the text; in a written file the mark cannot run across the characters between lines and attributes, so it stands only in a text of the model, or at the end (`Proofs/CutTexts`). The parse panic (C14) is left as an alternative where the text is arbitrary. The witnesses are loaded by the kernel |
| C77 | nothing new: the reading functions of `Model/Mapping`, `Model/Extractor` and `Model/Report`, the check and the loader | specification `Spec/Renumber`: a value with each reference replaced, inline values included, the ids that occur, and renumberings that keep the order or keep different ids different. Function by function reading commutes with an injective renumbering; a renumbering that is injective on the ids that occur is extended to all numbers. The texts of unknown entities are kept as they are, so a `#5` in one is not renumbered; it is never read as a reference. The witness for the order is loaded by the kernel |
| C78 | nothing new: the reading functions, the check and the loader as in C77 | specification `Spec/Beside`: the ids about which a relation speaks to the queries, a model grown from another, models without a common id, one report after the other. The lemmas of C77 are proved for a model that lies inside another under other ids (`Inside`), where the entries outside are not found under its ids and its relations are those about its ids; C77 is the case where it is the whole. What stands in the texts of unknown entities is neither an id nor a reference. The two witnesses that the conditions are needed are loaded by the kernel |
| C79 | nothing new: the writers and readers of C05–C11 | specification `Spec/SameFile`: values that are equal but for texts and reals, attribute by attribute. Two equal texts are taken apart by the reader: it reads one attribute (line, header) off both and leaves the same rest, so that what was read off is the same text too. Reals by the error bound of C21 and the exactness of C20. The counterexamples are evaluated by the kernel |
| C80 | nothing new: the readers of C05–C12 and C49 | specification `Spec/LineEnds`: a text, value, entity, header or model with every line feed replaced. Shown for the layouts of C10 and the header texts of C49, piece by piece: gaps stay gaps, numbers and words contain no line feed, texts are decoded alike before and after. The part on what stands before a file holds for all texts; the part on line ends for files in a standard layout, as C10 |
| C81 | nothing new: the readers of C09 and C10 and the references of C13–C15 | specification `Spec/HandEdit`: what stands around the lines of a file, a line that says an entry, a line in comment marks. Shown from the reading of whole files (C10): a line more or less is an entry more or less in the list that is put into the map, and the verdict on the changed map is that of C74 (removed and inserted entries) |
| C82 | nothing new: as C81 | specification `Spec/Rewrite`: names that are none of the known ones, what stands in the parentheses. The verdict on a model with one entry set, as C74; a record under another name is shown to be the text of an unknown entry (C09). The attributes must contain no semicolon and no open comment, as in C09; the spellings are checked for all types by kernel evaluation |
| C83 | nothing new: `pIfc` and `fromStr` of `Model/File` | specification `Spec/Apart`: an outcome with another header; headers are the texts of C49, shown there to be exactly what the header reader takes. The reader of the data gets the text behind the header and nothing else; the check reads the entries only |
| C84 | `Model/FromFile`: `IFC::from_file`; what is under the path is a parameter (`Disk`); `fs::read_to_string` is the decoder of Lean's core library | specification `Spec/Utf8`: the bytes of a character by arithmetic, as the Unicode Standard has them, and Latin-1. The decoder is shown to give exactly the text whose UTF-8 form the bytes are. The refusals follow from the ranges of the bytes |
| C85 | `Model/CheckError`: the check with what its error names (entry, reference, types allowed, type found); not the words (the attribute is in C86) | specification `Spec/CheckError`: ill-typed references, good entries, none missing. The check is a fold that stops at the first entry that is not fine; it agrees with the check of C13, which has no content in its error |
| C86 | `Model/CheckMessage`: the names of struct and attribute in the message of a check, from the declarations of C68; not the words between them | specification `Spec/CheckMessage`: `StandsAt`, at which place of an entry a field of a struct embedded in it is. Without names the checks are the demands of C68, so the message agrees with the error of C85; that places do not depend on the bound of the depth, and that names differ, is a finite table over all types |
| C35 | extractor (iterators taken as consumed to the end) | refinement to set comprehension over the relation entities; panics exact; no panics after loading without unknown entities; answers on built models |
| C36 | derive macro table | enumerated rows; witness file |
| C37 | setters of Person, Organization and PersonAndOrganization (Model/Persons) | induction over a sequence of calls: lists keep the old elements and get the new ones in call order, new entities under unused ids; a call panics exactly if the attribute it adds to is `*` at that time |
| C38 | `transforms.rs` (`applyTransform`), both forms | each representation is wrapped in a mapped one and nothing else stored changes; any sequence nests in call order (induction over the calls with a frame: what is not a shape stays, a shape's representations are reached by exactly its own calls). `normalize` is the parameter `World.unit` |
| C39 | material thickness, walls, slabs, roofs, shading devices | the thickness is the sum exactly when usage, set and layers exist; the stored body (outline, direction, depth), place and name of each element are read back from the stored values by `Spec/Geometry.lean`. The first summand of an empty `f64` sum (0 or -0, by compiler version) is the parameter `World.sumStart`. The `f64` sum, difference and product used are shown to be those of IEEE 754 (`Spec/Arith.lean`: exact result, nearest representable value, ties to even) |
| C40 | dummy reader | induction on text |
| C41 | keyword and attribute table against `Spec/Names.lean` | kernel evaluation over all types; witnesses. The tables are from knowledge of the standard (not in the repository), hence trusted |
| C42 | rows of the schema table against the IFC4 attribute table in `Spec/Standard.lean` | a decidable condition per row (`fits`) shown sufficient by induction on attribute forms; a lost line per deviating type by kernel evaluation |
| C43, C44 | enumeration tables and allowed targets against the same table | kernel evaluation over all attributes; witness files |
| C45 | f64 model, `real.rs`; shortest decimals specified apart from the search (Spec/Shortest) | rounding is monotone, so a short decimal bounds the shortest one; exactness of the fractional part; the search returns the closest decimal of the coarsest grid that has one reading back; two shortest decimals are neighbours that differ in the last digit only |
| C46 | same | structure of the two written forms; a non-whole double is never printed as a whole number |

## 4. Trusted base

* Lean 4 kernel; axioms allowed: `propext`, `Classical.choice`, `Quot.sound` (checked with `#print axioms`; the list per theorem is in MANIFEST notes when different).
* Correctness of the transcription of the cited Rust lines into Lean. Reader, printer and check were compared with the output the repository records (a 2.6 MB
  snapshot, byte for byte) and with its unit tests, see `validation/README.md`.
* Semantics assumed of external code: winnow 0.6 combinators; Rust `str::replace`, `char::is_alphanumeric` (opaque beyond ASCII), `str::trim`,
  `f64` parse/Display/`{:.14E}`; `fs::read_to_string` (an error unless the bytes are well-formed UTF-8, C84); `BTreeMap`; `HashMap`/`HashSet` (iteration = some permutation of the contents); chrono range and RFC 3339 parsing (of a current 0.4 release, which takes U+2212 for a minus sign); `strum` (names in declaration order).
* The tables of the standard in `Spec/Names.lean`, `Spec/Standard.lean`, `Spec/Conform.lean`, `Spec/Step.lean`, `Spec/Exchange.lean` and `Spec/Legible.lean` (IFC4 ADD2 attributes, constants, reference targets, and where IFC4X3 ADD2 differs in what the builders write; the grammar of ISO 10303-21), written from knowledge of the standards, for C41–C44, C46, C65–C67.
* Builders: a script lists the calls of a program in order. Assumed: no `mem::forget` of a builder, no change of the model behind a builder's back, builders nest as the borrow
  checker forces them to, a panic ends the run, every walk through a hash table may have its own order (the code's tables keep one order until changed, so this allows more runs than
  there are). `World` holds what is outside: GUIDs, clock, `normalize`, hash orders.
* `DVec3::normalize` is `v * (1.0 / sqrt(x*x + y*y + z*z))`, summed from the left, and `==` of vectors compares components (C61, C62; the crate's source is not in /repo). The products of a `DQuat` and its construction are as in `Model/Spin` (C71).
* C68: `syn` parses declarations as written; names of types in attributes and fields stand for the structs of the crate of that name (names are unique and no `use .. as` occurs); `parse_args` fails if the argument is no list of identifiers.
* `dyn Any` downcast is equality of the entity's row in the table.

## 5. Not modelled

* bevy_math vector arithmetic other than where a builder uses it (values are parameters); rotations other than those of C71. `normalize` and the product of a quaternion and a vector are parameters of the builders; C62 and C71 say what glam's own are.
* `Debug` output, the words around the values in the lines that extractor.rs prints and the notation of those values (C75 has the lines), the writing of files by the other examples (C63 has their text), CI, wasm/serde glue; performance; stack depth; memory.

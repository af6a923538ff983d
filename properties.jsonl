{"id": "C01", "title": "GUID value survives write and read", "statement": "Writing any 128-bit global id gives exactly 22 characters of the IFC base-64 alphabet inside quotes, and reading that text back yields the same 128-bit value; two different ids are never written as the same text.", "quantifier": "for every one of the 2^128 global ids and every text that may follow it in the file", "why_tests_cant": "2^128 values; bit-shuffling code with 4 special cases per 16 bytes where an error can hide in any bit position", "anchors": ["ifc_rs/src/id/ifc_uuid.rs: IfcGloballyUniqueId::{parse, fmt, decode, encode, combine_first, combine_base64, combine_base16}"]}
{"id": "C02", "title": "GUID text accepted, and when it is changed", "statement": "Reading a 22-character id text over the alphabet and writing it back reproduces the text exactly when its first character is one of 0,1,2,3; for every other first character the text is accepted but written back differently (silently altered).", "quantifier": "for every 22-character string over the 64-character alphabet", "why_tests_cant": "64^22 texts; the tests only use a handful of well-formed ids", "anchors": ["ifc_rs/src/id/ifc_uuid.rs: parse, combine_first, encode"]}
{"id": "C03", "title": "String attribute survives write and read", "statement": "A text attribute value given through the API is read back unchanged after writing, provided it contains no apostrophe and none of the seven umlaut escape bodies (X2\\00C4\\X0 and alike); a value with an apostrophe or with a complete escape never comes back, and a value with only an escape body may not.", "quantifier": "for every string value (any Unicode text) and any following file text", "why_tests_cant": "unbounded strings; escape/unescape is sequential textual replacement whose correctness depends on non-overlap of the patterns everywhere in the text", "anchors": ["ifc_rs/src/parser/string.rs: encode, decode, StringPrimitive::{from, parse, fmt}"]}
{"id": "C04", "title": "Written strings contain no raw umlauts, and decoding is the inverse", "statement": "The written form of a string contains none of the characters \u00c4 \u00e4 \u00d6 \u00f6 \u00dc \u00fc \u00df, every other character is kept in order, and each escape sequence \\X2\\00XX\\X0\\ of these seven in a file reads as its character wherever it stands, unless a neighbouring escape shares its outer backslash.", "quantifier": "for every string", "why_tests_cant": "claims about every position of every string", "anchors": ["ifc_rs/src/parser/string.rs: UMLAUTE_MAP, encode, decode"]}
{"id": "C05", "title": "References, integers, booleans and enumeration values survive write and read", "statement": "Every entity reference, 64-bit integer, three-valued boolean, and each enumeration constant of every enumeration in the library is read back as the same value after being written, whatever delimiter follows.", "quantifier": "for every value of each primitive type, every enumeration table and every follow-up text beginning with a delimiter", "why_tests_cant": "numeric ranges are unbounded for tests; each enumeration parser is an ordered choice in which an earlier name that is a prefix of a later one would capture it", "anchors": ["ifc_rs/src/id/plain.rs", "ifc_rs/src/id/typed.rs", "ifc_rs/src/parser/integer.rs", "ifc_rs/src/parser/bool.rs", "ifc_rs/src/objects/**/*_enum.rs", "ifc_rs/src/units/*_enum.rs", "ifc_rs/src/geometry/shape_representation/repr_type.rs"]}
{"id": "C06", "title": "Optional values and lists survive write and read", "statement": "An attribute that is omitted ($), inherited (*) or given, and lists of any length of attributes, are read back exactly as they were before writing, to any nesting the library uses, provided the texts and reals in them are ones that by themselves come back (no apostrophe, no umlaut escape body, no real that is written in scientific form).", "quantifier": "for every optional state, list length and element values", "why_tests_cant": "unbounded lists and nesting; list reading stops at the first ')' so the element reader and the list reader interact", "anchors": ["ifc_rs/src/parser/optional.rs", "ifc_rs/src/parser/list.rs"]}
{"id": "C07", "title": "Every entity survives write and read", "statement": "For every entity type of the library and every value of its fields that is textually representable, the text the library writes for it is read back as an entity of the same type with the same field values.", "quantifier": "for every entity type and all values of its fields", "why_tests_cant": "about 75 types with unbounded field values and an ordered choice of all parsers in which one type could capture another's text", "anchors": ["ifc_rs/src/objects", "ifc_rs/src/geometry", "ifc_rs/src/relations", "ifc_rs/src/units", "ifc_rs/src/materials", "ifc_rs/src/properties", "ifc_rs/src/meta/datamap/deserialize.rs"]}
{"id": "C08", "title": "Reader picks the type by the keyword", "statement": "An instance line is read as entity type T only if it begins with one of T's own keywords, and the order in which the library tries the types does not change what a line is read as.", "quantifier": "for every line text", "why_tests_cant": "an ordered choice over all types; whether an earlier type can swallow a later one's line depends on all texts", "anchors": ["ifc_rs/src/meta/datamap/deserialize.rs", "ifc_rs/src/objects/mod.rs", "ifc_rs/src/geometry/mod.rs", "ifc_rs/src/relations/mod.rs", "ifc_rs/src/units/mod.rs", "ifc_rs/src/materials/mod.rs", "ifc_rs/src/properties/mod.rs"]}
{"id": "C09", "title": "Unknown entities are kept verbatim", "statement": "An instance whose keyword the library does not know, or whose arguments it cannot read, is kept as an unknown entity, and is written back with its text unchanged up to the blanks around the terminating semicolon; loading does not fail because of it.", "quantifier": "for every text without a semicolon that no known type accepts", "why_tests_cant": "quantifies over all texts the typed parsers reject", "anchors": ["ifc_rs/src/parser/dummy.rs", "ifc_rs/src/meta/datamap/deserialize.rs"]}
{"id": "C10", "title": "Blanks and comments between tokens do not matter", "statement": "Putting any amount of blanks, newlines and /* */ comments around a comma separating attributes, around an enumeration or logical value, around the number and '=' of a line, before the closing parenthesis of a list and (for the types whose reader allows it) around the keyword and the end of the line does not change what is read. There are other places where the standard allows blanks at which they turn the line into an unknown entity: after the opening parenthesis of a list, inside the parentheses of a typed value, before a closing parenthesis that is written together with the semicolon, before the parenthesis or the semicolon of some types (a witness each).", "quantifier": "for every amount and mix of blanks and comments at these places", "why_tests_cant": "infinitely many layouts of the same file", "anchors": ["ifc_rs/src/parser/mod.rs: p_space_or_comment, p_space_or_comment_surrounded", "ifc_rs/src/parser/comma.rs", "ifc_rs/src/meta/datamap/deserialize.rs"]}
{"id": "C11", "title": "Whole model survives write and read", "statement": "Writing a model and reading the text back gives a model with the same header fields, the same ids and at each id an entity of the same type with the same field values, whenever its texts are representable and its references check.", "quantifier": "for every model: any set of ids and entities, any header values in the representable class", "why_tests_cant": "unbounded models; composition of header, data section and footer readers with skip rules between them", "anchors": ["ifc_rs/src/lib.rs: IFC::{from_str, parse, fmt}", "ifc_rs/src/meta/datamap/serialize.rs", "ifc_rs/src/meta/datamap/deserialize.rs", "ifc_rs/src/meta/header", "ifc_rs/src/meta/footer"]}
{"id": "C12", "title": "Order of lines does not matter and the last duplicate wins", "statement": "Two files whose instance lines are permutations of each other with distinct ids give the same model; if an id occurs twice, the later line is the one kept.", "quantifier": "for every list of instance lines and every permutation", "why_tests_cant": "factorially many permutations of unboundedly long files", "anchors": ["ifc_rs/src/meta/datamap/deserialize.rs", "ifc_rs/src/meta/datamap/mod.rs: From"]}
{"id": "C13", "title": "Loaded model has no dangling or ill-typed checked reference", "statement": "If loading succeeds, every reference held in a checked field of a loaded entity points to an entity present in the model, whose type is one of the types allowed for the field or is an unknown entity.", "quantifier": "for every input text on which loading succeeds and every entity and field in it", "why_tests_cant": "all files; the checks are generated by a derive macro per field kind", "anchors": ["ifc_rs/src/lib.rs: from_str", "ifc_rs_verify_derive/src", "ifc_rs/src/ifc_type.rs"]}
{"id": "C14", "title": "Loading returns a result and never panics", "statement": "Loading any text returns either a model or an error; it does not panic. (Expected false: dangling reference, out-of-range timestamp and unreadable header date panic; then the exact condition under which loading panics is proved.)", "quantifier": "for every input text", "why_tests_cant": "all texts", "anchors": ["ifc_rs/src/lib.rs: from_str", "ifc_rs/src/meta/datamap/mod.rs: get_untyped", "ifc_rs/src/parser/timestamp.rs", "ifc_rs/src/meta/header/deserialize.rs: p_name"]}
{"id": "C15", "title": "Following a reference of a loaded model does not panic", "statement": "In a model that was loaded successfully, fetching the target of any typed reference field through the typed getter does not panic. (Expected false when the target was kept as an unknown entity; true when the target's line was readable.)", "quantifier": "for every loadable file and every typed reference in it", "why_tests_cant": "all files", "anchors": ["ifc_rs/src/meta/datamap/mod.rs: get, get_untyped", "ifc_rs_verify_derive/src"]}
{"id": "C16", "title": "Inserting a new entity never disturbs existing ones", "statement": "insert_new returns an id that was not in use, larger than all ids in use; after it the new id yields the new entity and every other id yields what it yielded before, through any sequence of insertions, as long as the 64-bit id space is not exhausted.", "quantifier": "for every model and every sequence of insertions", "why_tests_cant": "unbounded histories", "anchors": ["ifc_rs/src/meta/datamap/mod.rs: insert_new, get, contains"]}
{"id": "C17", "title": "DataMap behaves as a finite map", "statement": "For any sequence of insert, insert_new, insert_if_not_exists, remove operations, contains/get_untyped answer as the abstract finite map would, and iteration and writing visit the entries in strictly ascending id order without duplicates.", "quantifier": "for every operation history", "why_tests_cant": "unbounded histories", "anchors": ["ifc_rs/src/meta/datamap/mod.rs", "ifc_rs/src/meta/datamap/serialize.rs"]}
{"id": "C18", "title": "Search by type is exact", "statement": "find_all_of_type returns exactly the entities of the requested type, each once, in ascending id order; id_of finds the id under which the entity is stored.", "quantifier": "for every model and type", "why_tests_cant": "unbounded models", "anchors": ["ifc_rs/src/meta/datamap/mod.rs: find_all_of_type, id_of"]}
{"id": "C19", "title": "A typed reference stays valid while the model grows", "statement": "A typed reference obtained from inserting an entity keeps resolving to an entity of that type through any sequence of further insertions and in-place modifications; replacing or removing that id is the only way to break it.", "quantifier": "for every history after the reference was obtained", "why_tests_cant": "unbounded histories", "anchors": ["ifc_rs/src/id/typed.rs", "ifc_rs/src/meta/datamap/mod.rs: insert_new, insert, remove, get_mut"]}
{"id": "C20", "title": "Reals written in plain notation keep their value", "statement": "A finite real that is whole or whose fractional part has a shortest decimal with at most ten digits other than zero is read back bit for bit after writing; NaN and infinities also come back; and a real read is the double nearest to the decimal text (ties to even). A decimal is read as a finite double exactly if its value is below 2^1024 - 2^970 and as an infinity otherwise; without exponent and with at most 308 digits before the point it is always finite.", "quantifier": "for every double of the class", "why_tests_cant": "2^64 values", "anchors": ["ifc_rs/src/parser/real.rs: format_double, format_non_sci_double, parse"]}
{"id": "C21", "title": "Reals written in scientific notation keep 15 significant digits", "statement": "A real that is written in scientific notation is read back with relative error at most 5e-15 plus half a unit in the last place; it is not in general the same value (1/3 is changed).", "quantifier": "for every double of the class", "why_tests_cant": "2^64 values, rounding analysis", "anchors": ["ifc_rs/src/parser/real.rs: is_scientific, format_sci_double"]}
{"id": "C22", "title": "Written reals are stable text from the second write on", "statement": "The text written for a real that was itself read from written text is reproduced by every further read and write, and for reals in plain notation already from the first write on; in scientific notation the first write is not stable (0.99999999999999989 gives 1.00000000000000E0 and then '1.').", "quantifier": "for every double", "why_tests_cant": "2^64 values", "anchors": ["ifc_rs/src/parser/real.rs"]}
{"id": "C23", "title": "Header survives write and read", "statement": "Header values (view definitions, file name, time to the second, authors, organisations, tool names, schema) in the representable class are read back unchanged; an empty description list and empty author list included.", "quantifier": "for every header in the class", "why_tests_cant": "unbounded lists of strings", "anchors": ["ifc_rs/src/meta/header/deserialize.rs", "ifc_rs/src/meta/header/serialize.rs"]}
{"id": "C24", "title": "Schema spelling is normalised once", "statement": "Each accepted schema spelling is mapped to one of three versions, writing and re-reading keeps the version, and files of any other schema are rejected with an error.", "quantifier": "for every schema text", "why_tests_cant": "all texts after the keyword prefix", "anchors": ["ifc_rs/src/meta/header/deserialize.rs: p_schema_inner", "ifc_rs/src/meta/header/mod.rs: FileSchemas"]}
{"id": "C25", "title": "Saving a loaded file normalises it", "statement": "If loading a text gives model m then loading what is written for m gives m again (load-save-load is load), whenever texts have no raw escape after decoding, reals are written in plain notation, the time has no fraction of a second and a year from 0 to 9999, and unknown entities are kept by writing and reading. With the last two conditions alone the written text still loads, gives m up to these reals, texts and the fraction, and nothing changes any more after that. Each condition is needed.", "quantifier": "for every loadable text of the class", "why_tests_cant": "all texts", "anchors": ["ifc_rs/src/lib.rs"]}
{"id": "C26", "title": "Timestamps", "statement": "An owner-history timestamp integer is read to the instant of that many seconds since 1970 and written back as the same integer exactly within chrono's range; outside it reading panics.", "quantifier": "for every 64-bit integer", "why_tests_cant": "2^64 values, boundary unknown to tests", "anchors": ["ifc_rs/src/parser/timestamp.rs"]}
{"id": "C27", "title": "Scientific number without exponent digits is fatal", "statement": "A number such as 1.0E followed by a non-digit anywhere a real is expected makes the whole file unreadable instead of turning the line into an unknown entity.", "quantifier": "for every such line in any position of any file", "why_tests_cant": "interaction of committed failure with the surrounding ordered choices for all contexts", "anchors": ["ifc_rs/src/parser/real.rs", "ifc_rs/src/meta/datamap/deserialize.rs"]}
{"id": "C28", "title": "Builder output is accepted by the reader", "statement": "For every sequence of calls to the project/site/building/storey builders using ids they returned, the produced model passes the reader's reference check. (Expected false for shading devices; true otherwise.)", "quantifier": "for every call history of the builder API", "why_tests_cant": "unbounded histories of about forty operations", "anchors": ["ifc_rs/src/ifc_builder", "ifc_rs/src/relations/rel_contained_in_spatial_structure"]}
{"id": "C29", "title": "Every built element is contained in exactly its storey", "statement": "After closing a storey builder, every wall, slab, roof, window and shading device created through it is listed exactly once in the containment relation of that storey, and nothing else is: openings and spaces created through it are not listed in any containment relation.", "quantifier": "for every call history", "why_tests_cant": "unbounded histories; sets collected in hash order and written on drop", "anchors": ["ifc_rs/src/ifc_builder/storey.rs: Drop", "ifc_rs/src/relations/rel_contained_in_spatial_structure"]}
{"id": "C30", "title": "Every built element is linked to its type", "statement": "After the storey builder is closed, asking for the type of any wall, slab, roof or window created through it gives the type passed at its creation. (Expected false for spaces: their type relation is never written.)", "quantifier": "for every call history", "why_tests_cant": "unbounded histories", "anchors": ["ifc_rs/src/ifc_builder/storey.rs", "ifc_rs/src/ifc_extractor/mod.rs: related_type"]}
{"id": "C31", "title": "Every built element is linked to its material", "statement": "After build, the material association relations link each wall, slab, roof and window to the material given at creation, one relation per material, each element exactly once.", "quantifier": "for every call history", "why_tests_cant": "unbounded histories", "anchors": ["ifc_rs/src/ifc_builder/walls.rs", "ifc_rs/src/ifc_builder/slabs.rs", "ifc_rs/src/ifc_builder/roofs.rs", "ifc_rs/src/ifc_builder/windows.rs", "ifc_rs/src/ifc_builder/project.rs: build"]}
{"id": "C32", "title": "The spatial tree is complete", "statement": "After build, the aggregation relations link the project to exactly the sites created, each site to exactly its buildings, each building to exactly its storeys, and each storey to its spaces.", "quantifier": "for every nesting of builder calls", "why_tests_cant": "unbounded histories", "anchors": ["ifc_rs/src/ifc_builder/project.rs", "ifc_rs/src/ifc_builder/site.rs", "ifc_rs/src/ifc_builder/building.rs", "ifc_rs/src/ifc_builder/storey.rs"]}
{"id": "C33", "title": "Openings void their host and windows fill their opening", "statement": "Each opening created in a wall, slab or roof is written with exactly one voids-relation to that host, and each window placed in an opening with exactly one fills-relation.", "quantifier": "for every call history", "why_tests_cant": "unbounded histories", "anchors": ["ifc_rs/src/ifc_builder/openings.rs", "ifc_rs/src/ifc_builder/windows.rs", "ifc_rs/src/ifc_builder/storey.rs: Drop"]}
{"id": "C34", "title": "Result does not depend on hash iteration order", "statement": "Two runs of the same builder calls that differ only in the iteration order of the builder's hash sets and maps give the same set of relations up to renumbering of the relations and order inside them.", "quantifier": "for every call history and every pair of iteration orders", "why_tests_cant": "iteration order is randomised per process; tests see one order", "anchors": ["ifc_rs/src/ifc_builder/storey.rs: Drop", "ifc_rs/src/ifc_builder/project.rs: build"]}
{"id": "C35", "title": "Extractor queries return exactly the related entities", "statement": "relations_of, contained_structures, related_voids, related_materials and related_type return exactly the entities which the relation entities of the model relate to the given id; related_type panics exactly if there is none or the type named first does not exist, which a loaded file can contain.", "quantifier": "for every model and id", "why_tests_cant": "unbounded models", "anchors": ["ifc_rs/src/ifc_extractor/mod.rs"]}
{"id": "C36", "title": "Inline entities are not checked", "statement": "A reference nested in an inline (non-# ) attribute value and references in the fields without declared types are not checked when loading: a file with a dangling reference there loads. (Negative finding.)", "quantifier": "exists/for every such field: list of all unchecked fields is exact", "why_tests_cant": "depends on the macro-generated code for every field", "anchors": ["ifc_rs_verify_derive/src", "ifc_rs/src/relations", "ifc_rs/src/properties"]}
{"id": "C37", "title": "Adding to an inherited list attribute", "statement": "Adding a role, address, etc. to a person or organisation appends it to the list, keeping the earlier ones; if the attribute was read as '*' the call panics.", "quantifier": "for every prior state and sequence of additions", "why_tests_cant": "unbounded histories", "anchors": ["ifc_rs/src/objects/person", "ifc_rs/src/objects/organization"]}
{"id": "C38", "title": "Transforms wrap and never lose geometry", "statement": "Applying a transform to a built element keeps the number of its representations, and each new representation is a mapped one whose chain of maps ends in the original representation; applying n transforms nests n deep.", "quantifier": "for every element and sequence of transforms", "why_tests_cant": "unbounded histories", "anchors": ["ifc_rs/src/ifc_builder/transforms.rs"]}
{"id": "C39", "title": "Material layers and thickness", "statement": "The extrusion thickness used for an element created with a layer-set usage is the sum of the thicknesses of the layers of the set, in order.", "quantifier": "for every list of layers", "why_tests_cant": "unbounded lists", "anchors": ["ifc_rs/src/ifc_builder/materials.rs", "ifc_rs/src/ifc_builder/storey.rs"]}
{"id": "C40", "title": "A string containing a semicolon or apostrophe inside an unknown line", "statement": "For an unknown entity, a semicolon inside a quoted string ends the entity early, so that the rest of the line breaks the file or is read as another instance. (Negative finding with exact condition.)", "quantifier": "for every text", "why_tests_cant": "all texts", "anchors": ["ifc_rs/src/parser/dummy.rs"]}
{"id": "C41", "title": "Names and attribute counts agree with the standard", "statement": "Every entity type is read and written under exactly its standard EXPRESS names, with the number of attributes of the edition its source links; against IFC4 ADD2 exactly telecom addresses and the two point lists differ, and standard lines of these types, postal addresses with a town, and walls and materials of IFC2x3 files are kept as unknown entities.", "quantifier": "for every entity type", "why_tests_cant": "a statement about all types at once; tests cover the types somebody wrote an example for, in the edition they had at hand", "anchors": ["ifc_rs/src/objects", "ifc_rs/src/objects/address/deserialize.rs", "ifc_rs/src/geometry/point_list/deserialize.rs", "ifc_rs/src/meta/header/deserialize.rs"]}
{"id": "C42", "title": "Which types can be read from standard files", "statement": "Every line of an entity type that is written as IFC4 prescribes (its attributes in order, each in one of the forms the standard allows, no line breaks) is read as that type, except for 27 types, each of which has a standard line that is only kept as the text of an unknown entity.", "quantifier": "for every entity type and every choice of attribute texts", "why_tests_cant": "tests read files from a few programs; which attribute forms and constants are lost is a statement about all combinations of attributes of all types", "anchors": ["ifc_rs/src/objects", "ifc_rs/src/geometry", "ifc_rs/src/units", "ifc_rs/src/material", "ifc_rs/src/relations"]}
{"id": "C43", "title": "Enumeration constants agree with the standard", "statement": "The constants read and written for every enumeration attribute are exactly those of the standard, except in ten listed attributes (misspelt electric units, COULOUMB, COMISSIONENGINEER, missing FREEFORM, HECTO, FREQUENCYUNIT, HEATINGVALUEUNIT, NOTDEFINED).", "quantifier": "for every enumeration attribute and constant", "why_tests_cant": "each constant would need its own sample file", "anchors": ["ifc_rs/src/units/shared", "ifc_rs/src/objects/shared", "ifc_rs/src/meta", "ifc_rs/src/parser/ifc_enum"]}
{"id": "C44", "title": "Targets of checked references agree with the standard", "statement": "For every checked reference attribute the types the check allows are those the standard allows (among the types the library knows), except for the listed attributes; where the check is narrower, conforming files are refused altogether, where it is wider, wrong files are accepted.", "quantifier": "for every reference attribute and every target type", "why_tests_cant": "75 types times all target types; a test shows one combination", "anchors": ["ifc_rs_verify_derive/src/lib.rs", "ifc_rs/src/relations", "ifc_rs/src/objects"]}
{"id": "C45", "title": "Decimals of at most 15 digits never change; when the scientific form is used", "statement": "A double nearest to a decimal of at most 15 significant digits comes back bit for bit after writing and reading, whichever form the writer chooses; 16 digits are not enough. A whole number is written without exponent, any other number exactly if the shortest decimal of its fractional part has at most 10 digits other than zero (if there are two shortest decimals they have equally many), in particular if the fractional part has at most 10 decimal digits. What is written without exponent shows a shortest decimal of the number: no decimal with fewer digits reads back as it, and none with as many is closer.", "quantifier": "for every double and every decimal", "why_tests_cant": "2^64 doubles; the form depends on the shortest decimal of the fractional part", "anchors": ["ifc_rs/src/parser/real.rs"]}
{"id": "C46", "title": "Written reals are reals of the file format", "statement": "The text written for a real is a REAL token of ISO 10303-21 (digits, a point, optional exponent) exactly if the number is finite; NaN and infinities produce text that is no token of the format.", "quantifier": "for every double", "why_tests_cant": "2^64 doubles", "anchors": ["ifc_rs/src/parser/real.rs"]}
{"id": "C47", "title": "Property sets are linked where asked", "statement": "After a run of builder calls there is exactly one property relation per call that relates a property set to an object (closing a wall property builder, relate_properties_object), naming that set and that object, in the order of the calls, and no other.", "quantifier": "for every call history", "why_tests_cant": "unbounded histories", "anchors": ["ifc_rs/src/ifc_builder/properties.rs", "ifc_rs/src/relations/rel_defines_by_properties.rs"]}
{"id": "C48", "title": "The time in a header is the instant written", "statement": "A time text (date, time of day, optional fraction of a second, optional offset from UTC) naming a day that exists is read as that instant in UTC, to the nanosecond, with digits after the ninth cut off and a missing offset taken as UTC; every other text stops the program.", "quantifier": "for every text", "why_tests_cant": "unbounded texts; the change of day, month, year and the leap rules meet only at rare dates", "anchors": ["ifc_rs/src/meta/header/deserialize.rs"]}
{"id": "C49", "title": "Which texts are headers and what they say", "statement": "A text is read as a file header exactly if it is one, with blanks and comments in any of the allowed places: the keywords and attributes of FILE_DESCRIPTION, FILE_NAME and FILE_SCHEMA in the order of ISO 10303-21, and then each field of the header is the one that stands in its place (view definitions, file name or `$`, the instant of the time text, authors, organisations, preprocessor, originating system, authorisation, schema versions). A text says at most one thing.", "quantifier": "all texts, all layouts, all header values", "why_tests_cant": "The set of layouts, comments, list lengths and texts is infinite; sample headers all have the same layout and would not show attributes exchanged on reading and writing alike.", "anchors": ["ifc_rs/src/meta/header/deserialize.rs:1-329", "ifc_rs/src/meta/header/mod.rs:9-155"]}
{"id": "C50", "title": "Programs of builder calls end, and ids follow from the calls", "statement": "If every reference a program passes to a builder was returned by an earlier call for an object of that kind, and the ids fit into a machine word, then no call panics, every call returns the id worked out from the sequence of calls alone, and the finished model has exactly the entities 1, 2, 3, \u2026 up to the number worked out from the calls. Two programs that make the same calls with the same references and as many properties get the same ids, call by call, whatever names, measures, places, outlines, transforms, kinds of types and people they pass; the clock, global ids and hash order have no influence either.", "quantifier": "all sequences of builder calls, all arguments, all hash orders", "why_tests_cant": "The sequences of calls are unbounded, every builder unwraps lookups and downcasts that fail only for particular histories, and hash order changes from run to run.", "anchors": ["ifc_rs/src/ifc_builder/storey.rs", "ifc_rs/src/ifc_builder/project.rs", "ifc_rs/src/ifc_builder/walls.rs", "ifc_rs/src/ifc_builder/slabs.rs", "ifc_rs/src/ifc_builder/transforms.rs"]}
{"id": "C51", "title": "The finished model says what the calls said", "statement": "If every reference a program passes to a builder was returned by an earlier call for an object of that kind, and the ids fit into a machine word, then the finished model holds, call by call and under the id that follows from the calls, what was asked for: the developer, owner, owner history, units and contexts; each site, building and storey with its name and its place relative to what it lies in; each material, layer, layer set, usage, constituent and type with its values; each property with its value and each set with its properties; each wall, slab, roof, space, shading device, opening and window with its name, its place, a body with the outline, direction and depth asked for (the summed layer thickness where the material gives it), and wrapped in exactly the transforms made on it, its own builder's first, in call order. Nothing done later in the program disturbs what an earlier call made.", "quantifier": "all sequences of builder calls, all arguments, all hash orders", "why_tests_cant": "A test compares a few outputs. That no later call, drop or transform disturbs an earlier element, however calls on wall, slab and storey builders are interleaved, is a statement about unboundedly many programs.", "anchors": ["ifc_rs/src/ifc_builder/walls.rs", "ifc_rs/src/ifc_builder/slabs.rs", "ifc_rs/src/ifc_builder/storey.rs", "ifc_rs/src/ifc_builder/project.rs", "ifc_rs/src/ifc_builder/windows.rs", "ifc_rs/src/ifc_builder/transforms.rs", "ifc_rs/src/ifc_builder/materials.rs"]}
{"id": "C52", "title": "No two objects of a built model share a global id", "statement": "A run of the builders puts every global id it draws into the finished model exactly once and no other id: as long as the generator does not repeat itself within the run, no GlobalId stands twice in the model, so two entities whose GlobalIds are written alike are one entity. Exactly the objects, types, property sets and relations (subtypes of IfcRoot) have a GlobalId.", "quantifier": "all sequences of builder calls that end without panic, honest or not, all arguments, all hash orders, all generators", "why_tests_cant": "A material relation gets its id when its first element is made and reaches the model only in `build`, others wait through a whole storey drop; a test sees random ids differ whether or not a value was copied on some path.", "anchors": ["ifc_rs/src/objects/shared/root.rs", "ifc_rs/src/id/ifc_uuid.rs", "ifc_rs/src/ifc_builder/project.rs", "ifc_rs/src/ifc_builder/storey.rs", "ifc_rs/src/ifc_builder/walls.rs"]}
{"id": "C53", "title": "A call on a value changes what it is named after and nothing else", "statement": "Every call that fills in a value before it is stored (name, tag, object_placement, owner_history, add_layer, relate_obj and so on) changes exactly the attribute of its name in the standard - the few whose names differ are listed - to the argument passed, or adds the argument at the end of that attribute's list; an argument given as an entity is stored under an unused id and the attribute points to it; nothing else in the value or the model changes. In a sequence of calls the last one that sets an attribute decides, and lists have the arguments in the order of the calls. A call panics exactly if an entity has to be stored and no id is left. The type set for a wall is written as a reference, where the standard has an enumeration.", "quantifier": "all 469 calls on all types (generic calls once for each type they can be used with), all values, all arguments, all models, all sequences of calls", "why_tests_cant": "Each call reaches its attribute through up to five levels of embedded structs; a call that writes to a neighbouring attribute of the same Rust type (name and description, height and width) compiles, and a test that sets one attribute and reads the same one back does not look at the others.", "anchors": ["ifc_rs/src/objects/shared/root.rs", "ifc_rs/src/objects/shared/product.rs", "ifc_rs/src/objects/shared/context.rs", "ifc_rs/src/objects/owner_history/mod.rs", "ifc_rs/src/materials/material_layer.rs", "ifc_rs/src/relations/rel_contained_in_spatial_structure.rs", "ifc_rs/src/geometry/shape_representation/mod.rs"]}
{"id": "C54", "title": "A value just made has what was passed, each argument in its own attribute, and nothing else", "statement": "Every function making a value (Wall::new, RelVoidsElement::new, ExtrudedAreaSolid::new and so on) gives every attribute of the new value what the parameter of its name was given - the parameters whose attributes are named otherwise are listed -, the global id just drawn, or no value (`$`, an empty list, `*`; contexts are 'Body', 'Model'). Every parameter has an attribute of its own. Entities passed are stored under unused ids, in the order they are used, and nothing else in the model changes; the function panics exactly if the ids left do not suffice for them. After further calls, attributes none of them is about are as they were made. Of the attributes mandatory in the standard only the owning user and application of an owner history are left out.", "quantifier": "all 253 functions making values (generic ones once for each type they can be used with), all arguments, all models, all sequences of calls afterwards", "why_tests_cant": "Several functions take two or three arguments of one type (the axes of a transformation, the host and the opening of a relation, the sides of a rectangle) and pass them on through base structs by position; swapping two compiles, and most of them are only ever tested through the builders with symmetric values or not at all.", "anchors": ["ifc_rs/src/relations/rel_voids_element.rs", "ifc_rs/src/relations/rel_fills_element.rs", "ifc_rs/src/geometry/transform_base.rs", "ifc_rs/src/geometry/non_uniform_transformations.rs", "ifc_rs/src/geometry/rectangle_profile_def/mod.rs", "ifc_rs/src/objects/shared/root.rs", "ifc_rs/src/objects/owner_history/mod.rs"]}
{"id": "C55", "title": "Values made with the functions and calls of the crate pass the check of a load", "statement": "A program that makes values, changes them by calls and stores them, passing only ids of the types they claim to be of (ids without a type: of entities that exist, for RelAggregates of the types it is for) and values it made itself, never gets a model the check of a load refuses, nor a reference that leads nowhere, in an attribute that is checked or in one that is not. The exceptions are listed completely: true_north of a context (takes an axis placement where the check wants a direction), RelContainedInSpatialStructure with a space or a shading device as structure, RelVoidsElement and RelFillsElement with a storey, space, site, roof or shading device (voids also with a door) as building element. Each of these compiles and always makes a value the check refuses, whatever else is done with the value before.", "quantifier": "all programs made of the 253 functions making values and the 469 calls and the calls on persons, organisations and persons in organisations (generic ones once for each type they can be used with), all arguments, all starting models that pass the check", "why_tests_cant": "The types a parameter accepts (trait implementations spread over 40 files) and the types the check accepts (attributes in the derive of each struct) are two separate lists; nothing compares them, and a test only sees the pairs it happens to use - none saves a relation with one of the thirteen pairs that are refused.", "anchors": ["ifc_rs_verify_derive/src/lib.rs", "ifc_rs/src/relations/rel_contained_in_spatial_structure.rs", "ifc_rs/src/relations/rel_voids_element.rs", "ifc_rs/src/relations/rel_fills_element.rs", "ifc_rs/src/geometry/representation_context/mod.rs", "ifc_rs/src/traits/sub_types.rs", "ifc_rs/src/id/id_or.rs", "ifc_rs/src/objects/person/mod.rs", "ifc_rs/src/objects/organization/mod.rs", "ifc_rs/src/objects/person_and_org/mod.rs"]}
{"id": "C56", "title": "What a program makes of writable values is saved and loaded back", "statement": "A program that makes values, changes them by calls and stores them, in any order, and passes no text with an apostrophe and no number outside its Rust type, gets a model that saves to a text which loads, giving every entity at its id with every text and real as it comes back by itself; if no text has an umlaut escape body and no real is written in scientific form, the very same model, but for the fraction of a second of the time in the header. One text with an apostrophe passed to any call or any function making a value is enough to spoil the value: no text whatsoever loads to a model that contains it.", "quantifier": "all programs made of the 253 functions making values and the 469 calls and the calls on persons, organisations and persons in organisations, all arguments, all starting models that are themselves writable", "why_tests_cant": "The builder tests save one fixed program each and compare the text with itself after a load. Whether every call stores its argument so that it survives, for all sequences of calls, and that apostrophes always break (the crate does not double them), needs reasoning about every call and every reader together.", "anchors": ["ifc_rs/src/parser/string.rs: encode, decode, StringPrimitive::{from, parse, fmt}", "ifc_rs/src/lib.rs: IFC::{from_str, parse, fmt}", "ifc_rs/src/objects/shared/root.rs", "ifc_rs/src/meta/datamap/mod.rs: insert_new", "ifc_rs/src/id/id_or.rs", "ifc_rs/src/objects/person/mod.rs", "ifc_rs/src/objects/organization/mod.rs", "ifc_rs/src/objects/person_and_org/mod.rs"]}
{"id": "C57", "title": "The reading functions give back what an element was built with", "statement": "For every element made by calls on the builders - wall, slab, roof, opening, window, shading device - the queries of the crate give what the calls gave: local_placement the position passed; shapes one representation for the body and one for the axis if it has one, all of them in the one context of the project (parent_context); mappings of its items the transforms in the order applied, last first, each with its origin and unit scales, and under them the extruded solid with the outline, direction and depth passed; an id stands for one body only. direction gives the extrusion direction if the element was transformed at most once and None after two transforms. items gives the items of the type asked for in order and panics exactly if an item does not exist. The layers of an element are those of its material in order with their thicknesses. A built model has no project, context, unit, owner history, person, application or organisation besides the ones the project starts with.", "quantifier": "all programs that call the builders honestly, all elements they make, all sequences of transforms, all numbers and names", "why_tests_cant": "The builders write and the mappings read the same geometry by two separate pieces of code; the tests check neither against the other, and only ever transform an element once, where direction still finds its solid.", "anchors": ["ifc_rs/src/objects/shared/product.rs: shapes, direction, local_placement", "ifc_rs/src/geometry/shape_representation/mod.rs: items, parent_context, mappings", "ifc_rs/src/geometry/extruded_area_solid.rs: mappings", "ifc_rs/src/relations/mapped_item.rs: mappings", "ifc_rs/src/ifc_builder/transforms.rs", "ifc_rs/src/ifc_extractor/mod.rs"]}
{"id": "C58", "title": "The example reads every built model to the end and says what was built; on loaded files it panics or hangs in listed cases only", "statement": "examples/extractor.rs run on a model made with the builders ends without a panic and reports one project, the sites, buildings and storeys made, for each storey the spaces and elements made in it and nothing else, each element with its turns and body, each wall with the kind of its type, the number of layers of its material and its openings. On a loaded file without unknown entities it does not panic if every polyline bounding a profile has points all of one dimension, no representation map is written inside a mapped item, and the first type relation of every contained wall names a wall type; it then comes to an end if no mapped item lies within itself, and print_items comes to an end exactly then. Each condition is needed: files that pass the check of a load are given for which the example panics or never returns.", "quantifier": "all programs that call the builders honestly; all files that load; all depths of mapped items", "why_tests_cant": "The example is not part of any test. Termination depends on there being no cycle among mapped items, representation maps and representations, which the check of a load does not look for; no finite set of files shows the absence of further panics.", "anchors": ["ifc_rs/examples/extractor.rs", "ifc_rs/src/ifc_extractor/mod.rs", "ifc_rs/src/geometry/polyline/mod.rs: points", "ifc_rs/src/geometry/arbitrary_closed_profile_def/mod.rs: mappings", "ifc_rs/src/relations/mapped_item.rs: mappings", "ifc_rs/src/objects/shared/product.rs"]}
{"id": "C59", "title": "The reading functions give exactly what is found by following references, on any model", "statement": "mappings of an axis placement, rectangle, arbitrary outline, extruded solid and mapped item, parent_context of a representation, and shapes, local_placement and direction of a product return a value exactly if each reference they follow leads to an entity of one of the types they know, and then the value is the one stored there: the location and the directions named, the side lengths with the position in plane or space, the points of the curve in order, the outline with position, direction and depth, the origin, representation, axes and scales of a mapped item. direction is that of the first extruded solid among the items of all representations in order, counting a mapped item for the first solid directly in what it maps. They panic exactly if no such value is found.", "quantifier": "all models, built, loaded or otherwise, with unknown entities and dangling or ill-typed references; all entities", "why_tests_cant": "Each function follows a tree of up to four references of several admissible types; the tests read one file with one shape of tree, and never a missing or ill-typed reference.", "anchors": ["ifc_rs/src/geometry/axis/mod.rs: mappings", "ifc_rs/src/geometry/rectangle_profile_def/mod.rs: mappings", "ifc_rs/src/geometry/arbitrary_closed_profile_def/mod.rs: mappings", "ifc_rs/src/geometry/polyline/mod.rs: points", "ifc_rs/src/geometry/extruded_area_solid.rs: mappings", "ifc_rs/src/geometry/transform_base.rs, uniform_transformations.rs, non_uniform_transformations.rs: mappings", "ifc_rs/src/relations/mapped_item.rs: mappings", "ifc_rs/src/geometry/shape_representation/mod.rs: parent_context", "ifc_rs/src/objects/shared/product.rs"]}
{"id": "C60", "title": "The example prints exactly the report of the model, whatever the model", "statement": "examples/extractor.rs comes to an end without a panic exactly if the model has a report, and prints it: the number of projects, of the sites aggregated under them, of the buildings under those and of the storeys under those; for each storey the number of its spaces and of what each of them contains, and for each object it contains, in the order listed, the type and - for walls, slabs, roofs, windows, doors and shading devices only - a paragraph for each extruded solid and each mapped item, numbered over all representations, what is mapped following three steps further in; for walls also the kind of the first type related, the number of layers of all layer set usages related, and each opening with its kind and items. A model has at most one report.", "quantifier": "all models, all depths of mapped items", "why_tests_cant": "unbounded models; the example is not tested", "anchors": ["ifc_rs/examples/extractor.rs", "ifc_rs/src/ifc_extractor/mod.rs"]}
{"id": "C61", "title": "A transform parameter holds the last translation and the last axes given that are not zero", "statement": "After any calls of translation, rotation, x_rotation, y_rotation and z_rotation on TransformParameter::default(), the translation is the last one given (zero if none) and each axis is the last vector given for it - by its own call or as the turned unit vector of a rotation - that differs from the zero vector (the unit vector if none). -0.0 counts as zero, NaN does not. So no axis is ever the zero vector.", "quantifier": "all sequences of calls, all vectors of doubles, all rotations", "why_tests_cant": "unboundedly many call sequences; the repository's test makes one translation", "anchors": ["ifc_rs/src/ifc_builder/transforms.rs"]}
{"id": "C62", "title": "A direction made from a vector is that vector's direction, if the vector is neither tiny nor huge", "statement": "Direction3D::from and Direction2D::from (the vector times the reciprocal of the root of its product with itself, in IEEE 754 arithmetic) give each component within 2^-50 of the exact component divided by the exact length, whenever the largest component lies between 2^-511 and 2^511; the squares of the components then add to one within 2^-47; unit vectors stay exactly as they are. Outside this the result is wrong: vectors with components of at most 2^-538, the zero vector among them, become infinities and NaNs, vectors with a component of 2^512 or more become the zero vector, and vectors with a component of 2^-511 or more become their direction, within the same bound, or the zero vector, the latter only if the squares add to 7/4 of 2^1023 or more. The lower bound is needed: below it there is a vector whose result has length more than 1.06. The axes of a stored transformation are such directions of the axes of the transform parameter.", "quantifier": "all vectors of finite doubles", "why_tests_cant": "rounding errors over 2^192 vectors", "anchors": ["ifc_rs/src/geometry/direction/mod.rs", "ifc_rs/src/ifc_builder/transforms.rs", "ifc_rs/src/ifc_builder/walls.rs"]}
{"id": "C63", "title": "What the repository's own example programs make", "statement": "examples/roof.rs ends, makes 298 entities that say what its calls said, and the file it writes is read back as the model; the extractor example prints one project, site, building and storey of it, with one space and its two walls, three slabs and four windows. examples/builder.rs ends and makes 498 entities that say what its calls said, but the file it writes is rejected by the crate's reader, because of its shading devices; without these two calls per storey the file is read back and shown as two storeys. examples/building.rs ends with 44 definite entities; its file is read back but for the last digit of the root of one half in two directions; the extractor example shows one project and nothing else of it, since the building hangs on the project without a site, although the functions reading the model find the wall with its type, its layer and its two bodies.", "quantifier": "all global ids drawn, all times, all hash orders, all results of the quaternion operations of the vector crate", "why_tests_cant": "the examples are not run by the tests and nothing reads their files back; ids, times and hash order differ in every run", "anchors": ["ifc_rs/examples/builder.rs", "ifc_rs/examples/roof.rs", "ifc_rs/examples/building.rs", "ifc_rs/examples/extractor.rs"]}
{"id": "C64", "title": "What loads is what stands in the file", "statement": "Whenever a text is loaded, well-formed or not, it consists of a header saying what the model's header holds, the word DATA, instance lines, ENDSEC and the end mark, with only blanks and comments between. Under each number the model holds what the last line with this number says, and nothing under other numbers; an entity of a known type is only read from a text that spells each of its attributes (references and integers digit by digit, reals as a decimal whose nearest double they are, texts up to umlaut escapes); what is kept as unknown does not begin with a layout of a known type. Lists are read more freely than the standard allows: commas may be missing or trail, so an apostrophe doubled within a text in a list splits it into two texts; any integer in the place of a sub-context's dimension counts as *.", "quantifier": "all texts that load", "why_tests_cant": "infinitely many texts, most of them not written by any program; tests only try texts in the expected layout", "anchors": ["ifc_rs/src/lib.rs", "ifc_rs/src/meta/datamap/deserialize.rs", "ifc_rs/src/parser/mod.rs", "ifc_rs/src/parser/list.rs", "ifc_rs/src/parser/optional.rs", "ifc_rs/src/parser/dummy.rs"]}
{"id": "C65", "title": "Written files follow the grammar of the file format", "statement": "If every real of a model is finite, its texts consist of printable ASCII characters other than apostrophe and backslash (texts of entities also of the seven German letters that are escaped), no entity is written inline and unknown lines are records themselves, then the file written is an exchange structure of ISO 10303-21: header with its three records, data section with one instance per entity in the order of the ids, end mark. For a known entity without apostrophe and backslash in its texts these conditions are also necessary for its line. A plane angle measure stored under its own id is written without semicolon, an inline entity with one, any other letter beyond ASCII as it stands; none of these is in the grammar.", "quantifier": "all models, all values of all attributes of all types", "why_tests_cant": "the tests only read files back with the crate's own reader, which is more tolerant than the grammar; infinitely many models", "anchors": ["ifc_rs/src/lib.rs", "ifc_rs/src/meta/header/serialize.rs", "ifc_rs/src/meta/datamap/serialize.rs", "ifc_rs/src/parser/string.rs", "ifc_rs/src/parser/real.rs", "ifc_rs/src/parser/optional.rs", "ifc_rs/src/parser/list.rs", "ifc_rs/src/id/id_or.rs", "ifc_rs/src/units/measure/plane_angle.rs"]}
{"id": "C66", "title": "Which written lines are lines IFC4 prescribes", "statement": "The line written for an entity without apostrophe and backslash in its texts is one that IFC4 prescribes for its type (keyword, attributes in order, each in an allowed form) exactly if each attribute holds a value the standard has for it: no missing required attribute, `*` exactly where the attribute is derived, finite reals, texts of ASCII and the German letters, lists that are not empty, references and not inline entities, constants of the standard's enumeration, values of a standard type. It is never one for telecom addresses and the two point lists; never for a material layer, whatever its texts, and never for a property with a boolean, since booleans are written .TRUE., .FALSE. and .UNKNOWN. where the standard has .T., .F. and .U.", "quantifier": "all types and all values of their attributes", "why_tests_cant": "infinitely many values; the reader takes both spellings, so reading back cannot show it", "anchors": ["ifc_rs/src/parser/bool.rs", "ifc_rs/src/parser/optional.rs", "ifc_rs/src/objects", "ifc_rs/src/geometry", "ifc_rs/src/relations", "ifc_rs/src/units", "ifc_rs/src/materials", "ifc_rs/src/properties"]}
{"id": "C67", "title": "Which lines of a built file follow the file format and IFC", "statement": "Let a program call the builders (project, sites, buildings, storeys, materials, types, elements, openings, windows, properties, transforms, in any number and order) with texts of printable ASCII other than apostrophe and backslash and the seven German letters, with any numbers, and with a developer and an owner that are as IFC4 has them. If it does not panic, every line written from the model is a record of ISO 10303-21 exactly if the numbers in it are finite, and if all are finite the whole file is an exchange structure. A line has the form IFC4 prescribes exactly if it is no point list, no type of a retaining wall, its numbers are finite, its lists have elements and it contains no truth value. In the edition that the header of the file names, IFC4X3 ADD2, the exceptions for point lists and retaining walls fall away. So the lines of all material layers, of empty relations, empty property sets and of boolean properties are not standard, and all others are.", "quantifier": "all programs of builder calls with such texts, all numbers, clocks, global ids and hash orders", "why_tests_cant": "infinitely many programs; the tests only read the output back with the crate's own tolerant reader", "anchors": ["ifc_rs/src/ifc_builder", "ifc_rs/src/lib.rs", "ifc_rs/src/meta/header/serialize.rs", "ifc_rs/src/meta/datamap/serialize.rs", "ifc_rs/src/parser"]}
{"id": "C68", "title": "The check of a load is the one the derive macro generates from the declarations", "statement": "The macro IfcVerify turns the declaration of a struct into its check. For every declaration: a field without `inherited` gets a check exactly if its type is Id, TypedId<T>, IdOr<T>, an IfcList of these, or an OptionalParameter of one of those six, and, where it is Id, types are named by `ifc_types`; the check demands the types named or T, respectively; arguments of `ifc_types` that cannot be read drop the check without a message. The macro panics exactly on enums, unions, unit structs, on fields with both attributes, and on those generic types without arguments. Checks run in the order: embedded structs marked `inherited`, then fields as declared. Applied to the 91 declarations of the crate, for every kind of entry, every value and every data map the generated code yields the verdict (good, error, panic) that the model of the load uses. All fields with references that get no check are the eleven listed; all embedded structs whose check is never called are the eleven listed, among them the root (owner history) of eight relations and property sets; IfcRelDefinesByType and IfcRelDefinesByProperties pass with any references.", "quantifier": "all declarations; all kinds, values and data maps", "why_tests_cant": "the macro has no tests of its own, and no test covers dropped checks, which compile without a message", "anchors": ["ifc_rs_verify_derive/src/lib.rs", "ifc_rs_verify_derive/src/field.rs", "ifc_rs_verify_derive/src/data_type.rs", "ifc_rs_verify_derive/src/inherited.rs", "ifc_rs/src/objects", "ifc_rs/src/geometry", "ifc_rs/src/relations", "ifc_rs/src/properties", "ifc_rs/src/materials", "ifc_rs/src/units"]}
{"id": "C69", "title": "Files of other programs that follow the file format are read completely", "statement": "Take any file with a header that can be read and a data section whose lines follow the grammar of ISO 10303-21 (numbers, single and complex records, user-defined keywords, nested lists, typed values, strings with doubled apostrophes and escapes, reals with exponents, binaries, enumerations; blanks and comments between any two tokens). Suppose the numbers have no leading zeros and fit 64 bits, and each record either is a standard layout of a known type or contains no semicolon, leaves no comment open and is not a plane angle. Then loading gives no parse error: each line gives one entry, in order, under its number; the entry is an entity of a known type that the record spells up to and including its semicolon, or, only if the record is in no standard layout of a known type, the record word for word. The only other outcome of reading is the panic on an owner history with a time out of range. Blanks or comments before the parenthesis or before the semicolon keep a record of a known type from being taken as such. After a load every number is present and holds the entry of its last line. Each condition is needed: a witness file for each.", "quantifier": "all headers that can be read, all data sections of the grammar under the conditions named", "why_tests_cant": "tests read three files and single lines of known types; the claim is about every record of the grammar, in particular that no prefix of a parameter is mistaken for a number with a truncated exponent (which would abort the load) and that a known type never stops short of or beyond its semicolon", "anchors": ["ifc_rs/src/meta/datamap/deserialize.rs:13-44", "ifc_rs/src/parser/dummy.rs:16-27", "ifc_rs/src/parser/mod.rs:31-37", "ifc_rs/src/lib.rs:83-109", "ifc_rs/src/parser/real.rs:15-22"]}
{"id": "C70", "title": "A standard file stays a standard file when it is loaded and saved", "statement": "Take a file as in C69 and suppose it loads. Every string of the format that the library takes for a text is written exactly as it stood, including escapes the library does not know. What a record was read as is written as a record of the format exactly if no real in it overflowed to infinity; what was kept as unknown is written word for word. If no real overflowed, the data section of the saved file again consists of records of the format with the same numbers, each once, and again meets the conditions of C69; so, if the year of the header is between 0 and 9999, the saved file gives no parse error when loaded, and when it loads it has the same numbers. Two limits, each with a witness: a real like 1.E400 is written as a word the format does not have; and a record of a known type with a blank before its semicolon, unknown at first, is taken for the known type after saving, so that a file that loads can be one that is refused once saved.", "quantifier": "all files of the grammar under the conditions of C69, all known types and all unknown records in them", "why_tests_cant": "tests save three files and do not compare the result with the grammar; the claim is about every string, list and nested record that can be read from a standard file, in particular that an entity is never taken inline from a standard record", "anchors": ["ifc_rs/src/lib.rs:83-109", "ifc_rs/src/parser/string.rs:11-63", "ifc_rs/src/parser/dummy.rs:16-33", "ifc_rs/src/parser/real.rs:15-43", "ifc_rs/src/meta/datamap/serialize.rs:5-16"]}
{"id": "C71", "title": "A rotation turns the axes of a transform parameter as a rotation of space does", "statement": "Call the quaternion of a turn by an angle about a unit vector the one made of the sine and cosine of half the angle. If the components of a DQuat differ from it by at most d (d at most 1/16), then for every vector with components of absolute value at most 1 the product DQuat * DVec3, computed in doubles, differs in each component by at most 2^-46 + 32 d from that vector turned about the axis by the angle (Rodrigues' formula, which is shown to keep lengths, angles and orientation, and to fix the axis). For a product of two such quaternions the result is the vector turned first by the right and then by the left one, within 2^-43 + 264 d. So after TransformParameter::rotation (d at most 1/128) the three axes are the turned unit vectors within that bound, whatever they were before, and the translation stays; the zero quaternion leaves all axes. If sines and cosines are accurate to e, from_rotation_x and from_rotation_z of an angle up to 8 are such quaternions with d = e + 2^-50, and the transforms of the examples roof.rs and builder.rs have the axes meant: (1,0,0), (0,s,s), (0,-s,s); (0,1,0), (-s,0,s), (s,0,s); (s,s,0), (-1/2,1/2,s), (1/2,-1/2,s), with s the root of one half, within 2^-40 + 264 e. The operator that a transform call stores for a parameter whose last call was a rotation has scale 1, the translation as its origin, and axes that take every point p to the turned p, within 2^-43 + 224 d (2^-40 + 1848 d for a product) times the sum of the coordinates' absolute values.", "quantifier": "all quaternions near that of a turn, all vectors of the unit cube, all sequences of calls before the rotation, all accuracies of sine and cosine up to 2^-11", "why_tests_cant": "rounding errors over 2^448 inputs; no test of the repository rotates anything, the examples do but nothing looks at the axes", "anchors": ["ifc_rs/src/ifc_builder/transforms.rs:22-25", "ifc_rs/examples/roof.rs:133-137", "ifc_rs/examples/roof.rs:169-176", "ifc_rs/examples/builder.rs:179-186"]}
{"id": "C72", "title": "The kinds of entries a built model has, who signs them and what the relations are called", "statement": "In the model a program makes with the builders exactly one entry is an owner history and nothing is uninterpreted. 59 of the 75 kinds of entity can occur; actor roles, postal and telecom addresses, doors, door types, two-dimensional directions, uniform transforms, RelDeclares, conversion based, derived and monetary units with their parts, measures and material properties cannot. Every root (project, spatial element, building element, opening, type, relation, property set) has a name and no description, and refers to that owner history, except aggregations, property sets and the relations that attach them, which have none. Relations are named by their kind: aggregations ProjectSitesLink, SiteBuildingsLink, BuildingStoreysLink or StoreySpacesLink; the containment StoreyToStructureElements; relations to types WallTypeToWall, SlabTypeToSlab, RoofTypeToRoof, WindowTypeToWindow or ShadingDeviceTypeToShadingDevice and a decimal number; openings OpeningElementToWall, OpeningElementToSlab or OpeningElementToWindow and a number; properties PropertiesLink; a relation of a material Material, the number of that material, and one of nine endings.", "quantifier": "all programs over the builders that do not panic, all clocks, GUID sources and hash orders, any ids passed on", "why_tests_cant": "the set of programs is infinite; the tests of the repository never look at the owner histories, descriptions or relation names of a built model", "anchors": ["ifc_rs/src/ifc_builder/project.rs:32-152", "ifc_rs/src/ifc_builder/storey.rs:93-297", "ifc_rs/src/ifc_builder/properties.rs:30", "ifc_rs/src/ifc_builder/walls.rs:278-318", "ifc_rs/src/objects/shared/root.rs:41-64"]}
{"id": "C73", "title": "What is read off a model that was saved and loaded", "statement": "Saving a model and loading the text gives a model about which the extractor's queries answer the same: the same projects, contained structures, relations, types, openings, materials and constituents under the same ids, in the same order and with the same panics; the place, direction and shapes of an element and everything the extractor example prints are those of the model with each real replaced by the value it is read back as. The same holds for a file of any origin that is loaded, saved and loaded again. For a program over the builders without shading devices, the example prints about the file written what the calls said, with reals as they come back; the file of a program with a shading device is refused. The reals do change: a wall built with height 1/3 is read back with height 0.333333333333333.", "quantifier": "all models that can be saved and loaded, all elements, all loadable texts with a four-digit year whose unknown records survive rewriting; all programs over the builders that meet the hypotheses of C58 and C28", "why_tests_cant": "the models are infinitely many and queries follow references through any number of entities; the tests of the repository never run the extractor on a file written by the crate", "anchors": ["ifc_rs/src/ifc_extractor/mod.rs", "ifc_rs/examples/extractor.rs:12-341", "ifc_rs/src/parser/real.rs", "ifc_rs/src/lib.rs"]}
{"id": "C74", "title": "A change of a model changes its own line of the file, and when the changed file loads", "statement": "Every call that changes a model (insert, insert_new, insert_if_not_exists, remove, assignment through get_mut) changes, adds or removes at most the line of the entry it is about; the text before and after that line stays the same, and a new entry is a line behind all others. After any changes the lines of untouched entries stand in both files in the same order. Models with the same text come back as the same model. After a file was loaded and an entry set or added, the file written loads exactly if the checked references of that entry are good and every other entry referring to it may refer to its type, and it then gives the changed model. After removing an entry it loads exactly if no other entry has a checked reference to the removed one; otherwise loading panics instead of returning an error.", "quantifier": "all models, all ids and entities, all changing calls; for loading: all loaded texts with a four-digit year whose unknown records survive rewriting", "why_tests_cant": "models, entries and the places of references are unbounded; the tests of the repository never change a loaded file and save it", "anchors": ["ifc_rs/src/meta/datamap/mod.rs:17-67", "ifc_rs/src/meta/datamap/serialize.rs:5-16", "ifc_rs/src/lib.rs:95-109", "ifc_rs_verify_derive/src/field.rs:80-137"]}
{"id": "C75", "title": "What the extractor example prints, line by line, and what it leaves out", "statement": "The example comes to its end exactly if the model has a report (C58, C60), and has then printed the lines of that report in this order with these indentations. Allowing more nested calls changes nothing unless the run was stopped, and then only continues what was printed. Of two models with reports it prints the same (leaving aside the text of the items) exactly if the reports are the same except for the sides of rectangles without a position and for the places of unknown structures among those of a storey. About a model made with the builders no side is left out. Two files whose slabs differ only in their width are printed alike because the sides of a rectangle without a position are not printed. What was printed before the program stops stays: of a wall without a type its name is printed and nothing more; the line of an item is printed before the item is looked into, and is the last one if that panics; about a mapped item that maps itself nine lines are printed again and again.", "quantifier": "all models, all bounds on nested calls, all reports; for built models all scripts", "why_tests_cant": "the number of structures, items, openings and nested mappings is unbounded, and that the lines determine the report is a statement about all pairs of models; the example is run on one file and its output is not compared with anything", "anchors": ["ifc_rs/examples/extractor.rs:12-341", "ifc_rs/src/ifc_extractor/mod.rs:72-81", "ifc_rs/src/geometry/shape_representation/mod.rs:90-104", "ifc_rs/src/geometry/extruded_area_solid.rs:77-88"]}
{"id": "C76", "title": "A file that was cut off, and a file with something behind its end", "statement": "A text in which END-ISO-10303-21; does not stand is never loaded: it is refused with a parse error, unless parsing panics, which needs an owner history in the text or a header date that is none. So if no text of a model contains that mark, nothing that is left of its file after losing at least the last two characters is loaded; losing only the final newline does no harm. A file in any layout that is cut off between two lines is refused with an error. Behind the end of a file blanks and comments change nothing, and with anything else there, for instance a second file, it is refused. The condition on the mark is needed: a file with one person whose name contains the mark, cut off inside that name, loads as another model with an unknown entity in place of the person. The panic can happen: a file that loads and is cut off in a name with an owner history in it makes the loader panic.", "quantifier": "all texts without the mark; all models meeting the condition and all cuts of their files; all files in any layout and all texts behind them", "why_tests_cant": "there is a cut at every character of every file and there are unboundedly many texts to append; no test loads a cut or a lengthened file", "anchors": ["ifc_rs/src/lib.rs:83-109", "ifc_rs/src/meta/datamap/deserialize.rs:33-40", "ifc_rs/src/meta/footer/deserialize.rs:11-37", "ifc_rs/src/parser/dummy.rs:16-27"]}
{"id": "C77", "title": "The ids of a model mean nothing but their order", "statement": "If all ids of a model, as numbers of lines and in references, are replaced by others in the same order, nothing that is read off the model changes but the ids: the queries find the same entities in the same order under their other ids and panic where they did, places, directions and shapes of elements are the same, the extractor example prints the same, and the check of references says the same. The model can be saved if the new ids are below 2^64, and its file loads as the file of the model does, with the other ids. So the ids of every savable model without the id 0 can be made the numbers from 1 on without a gap. In a file of any layout the lines may be given any different numbers, in any order: it loads exactly if it did, each entity under its other id. The order does mean something: a wall that two relations give a type has the type of the relation with the lower id, and exchanging the ids of the two relations changes the type that is found.", "quantifier": "all models and all renumberings that keep the order of the ids that occur; for loading all files in any layout and all renumberings that keep different ids different", "why_tests_cant": "there are unboundedly many models and renumberings of each; no test compares a file with a renumbered one", "anchors": ["ifc_rs/src/ifc_extractor/mod.rs:16-180", "ifc_rs/src/meta/datamap/mod.rs:45-90", "ifc_rs/src/meta/datamap/deserialize.rs:21-40", "ifc_rs/examples/extractor.rs:12-94", "ifc_rs/src/lib.rs:95-109"]}
{"id": "C78", "title": "What is read of a model does not depend on what else is in the file", "statement": "If entries come into a model whose ids do not occur in it, and the relations among them say nothing about its ids (are not aggregations of its objects, containments in its structures, types, openings or materials of its objects), then everything that is read about its ids stays: the entry, what the queries find, places, directions and shapes of elements, what is printed about each of them, and whether its references pass the check. The extractor example prints the same unless there is a project among what came in. Two models without a common id pass the check together exactly if each does alone; if the ids of the second are behind those of the first, the report on both is one report after the other, given exactly if both are. Two models that can be saved can be saved in one file with the ids of the second moved behind those of the first, and the report on that file is that on the first file followed by that on the second. The lines of two files of any layout without a common id may stand in one file: it loads exactly if both load, and has the entities of both. Both conditions are needed: a new containment in an old storey adds to what is found in it, and a type that a wall was missing may come in.", "quantifier": "all models, all models grown from them under the two conditions, all pairs of models or files without a common id", "why_tests_cant": "there are unboundedly many models and additions to each; no test adds to a model and compares what is read, and none loads two models in one file", "anchors": ["ifc_rs/src/ifc_extractor/mod.rs:16-180", "ifc_rs/src/meta/datamap/mod.rs:45-90", "ifc_rs/src/meta/datamap/deserialize.rs:21-40", "ifc_rs/examples/extractor.rs:12-94", "ifc_rs/src/lib.rs:95-109"]}
{"id": "C79", "title": "Which models have the same file", "statement": "Two models that can be saved have the same file exactly if their headers are the same up to the fraction of a second, they have the same ids, and the entries under each id are of the same kind and have the same attributes, except that texts and reals need only be written alike; unknown entries must be equal. Such models are read back as the same model. Reals that are written alike are equal, or both are written with an exponent, have the same sign and differ by at most 10^-14 of the sum of their magnitudes; texts without an apostrophe or an escape body that are written alike are equal. So if nothing is lost in writing, different models have different files. Different models with the same file do exist: two neighbouring reals, a letter and its escape. Of models that cannot be saved the file tells less: an unknown entry may have the file of a material, and one name with apostrophes that of two names.", "quantifier": "all pairs of savable models; all pairs of attribute values of all entity types; all pairs of reals and of texts", "why_tests_cant": "it is a statement about all pairs of models; the tests compare texts of single models that were read before", "anchors": ["ifc_rs/src/lib.rs:131-135", "ifc_rs/src/meta/datamap/serialize.rs:5-16", "ifc_rs/src/parser/real.rs:39-104", "ifc_rs/src/parser/string.rs:59-63", "ifc_rs/src/parser/optional.rs:78-86"]}
{"id": "C80", "title": "Other line ends, and what stands before a file", "statement": "If every line feed of a file in a standard layout is replaced by the same other blanks, for instance by carriage return and line feed, loading ends the same way, and what is loaded is the same model with the line feeds in its texts replaced in the same way. So a saved file with other line ends is loaded as the saved model if no text of it contains a line feed. Texts do change: a name with a line feed, and an unknown entry that stands in several lines, are kept with the line ends the file had. Line feeds must be replaced by something: without them a comment may end too early. A file that is loaded begins with ISO-10303-21; after blanks and comments; any other text, such as a file after a byte order mark, ends in a parse error, never in a panic.", "quantifier": "all files in a standard layout (FileText), all savable models, all non-empty blanks for the line feed; all texts for what stands before a file", "why_tests_cant": "it is a statement about all files and all their changed copies; the tests read files with the line ends of the repository", "anchors": ["ifc_rs/src/parser/mod.rs:62-88", "ifc_rs/src/parser/string.rs:29-57", "ifc_rs/src/parser/dummy.rs:9-33", "ifc_rs/src/meta/header/deserialize.rs:21-51", "ifc_rs/src/lib.rs:95-109"]}
{"id": "C81", "title": "A line commented out, deleted or written in by hand", "statement": "In a file in a standard layout, a line that contains no end of a comment can be put in comment marks, and the file then loads as if the line were deleted. If a line is deleted from a file that loads and no other line has its number, the file loads as the model without that entry when no other entry has a checked reference to it, and makes the loader panic otherwise. A line whose number a later line has again can be deleted or written in without effect. A line with a new number can be written in at any place between the lines, with the same result; the file loads exactly if the checked references of the new entry are good, and then as the model with the new entry. Comments do not nest: a line with a comment in it, or with the end of a comment in a text, is a parse error when commented out; and where an earlier line has the same number, deleting a line brings the earlier entry back.", "quantifier": "all files in a standard layout (FileText with a HeaderText), all lines of them, all places between lines", "why_tests_cant": "it relates each file to all its copies with one line more or less; no test edits a file", "anchors": ["ifc_rs/src/meta/datamap/deserialize.rs:22-42", "ifc_rs/src/parser/mod.rs:62-88", "ifc_rs/src/lib.rs:95-109", "ifc_rs/src/meta/datamap/mod.rs:31-48"]}
{"id": "C82", "title": "A line rewritten by hand, and a misspelled type name", "statement": "In a file in a standard layout that loads, let the last line with its number be rewritten. The file then loads exactly if the checked references of the new entry are good and every other entry with a checked reference to it may refer to its type, and then as the model with the new entry in place of the old one. If only the name of the type is changed to one that is not known, the file always loads: the entry is an unknown one then, all others are as before, it is found under no type, and following a reference to it panics. A type name in small or mixed letters, a type name followed by a blank before the parenthesis, and a type name without its first letter are all not known. A file of unknown entries only always loads.", "quantifier": "all files in a standard layout that load, all lines of them, all new entries and all unknown names; all types for the spellings", "why_tests_cant": "it is about all files and all replacements of a line; the loader gives no error or warning that a test could see", "anchors": ["ifc_rs/src/parser/dummy.rs:9-33", "ifc_rs/src/meta/datamap/deserialize.rs:21-42", "ifc_rs/src/meta/datamap/mod.rs:50-78", "ifc_rs/src/lib.rs:95-109"]}
{"id": "C83", "title": "Header and data do not affect each other", "statement": "Every text that loads consists of a header and a rest, and with any other header before the same rest it loads as the same entries with that other header. For any rest at all, whether it is well formed or not, replacing one header by another leaves the outcome the same: the same entries, the same kind of error, or a panic. The loaded header is what the text of the header says, whatever follows. Two texts that load alike behind one header do so behind every header. In particular the schema named in the header has no effect on how entries are read.", "quantifier": "all headers in any layout (HeaderText), all texts behind them", "why_tests_cant": "it compares the outcomes for all pairs of headers and all texts, also malformed ones", "anchors": ["ifc_rs/src/lib.rs:83-109", "ifc_rs/src/meta/header/deserialize.rs:21-51", "ifc_rs/src/meta/datamap/deserialize.rs:21-42"]}
{"id": "C84", "title": "Loading from a path reads UTF-8 and nothing else", "statement": "IFC::from_file of a file that holds the UTF-8 form of a text ends as IFC::from_str of the text does; every other file, and a path that cannot be read, is an error. So it panics exactly if the file is the UTF-8 form of a text on which from_str panics. The bytes are the UTF-8 form of at most one text. A savable model whose text is written to a file is loaded back from it. A file of ASCII characters is loaded as its text is. A file in which a byte from 128 on stands alone between smaller ones is an error; so is a Latin-1 file with an umlaut between ASCII characters, and every file with a byte from 248 on, such as UTF-16 files with a byte order mark. A UTF-8 file with a byte order mark is a parse error.", "quantifier": "all contents of a file (all lists of bytes), all texts, all savable models", "why_tests_cant": "all byte sequences; the tests load two resources of the repository", "anchors": ["ifc_rs/src/lib.rs:71-81", "ifc_rs/src/lib.rs:95-109", "ifc_rs/src/lib.rs:131-135"]}
{"id": "C85", "title": "The error of a failed check names the first bad entry", "statement": "The error with which a load is refused in the check names an entry, the id of a reference, the types allowed and the type found. It is true: the entry has a checked reference with that id, the target is of the type found, and that is none of the types allowed; and all checked references of entries with smaller ids are good. If no checked reference leads nowhere, there is an error exactly for the first entry with a bad reference. If that entry is made an unknown one, the next check passes, panics, or names an entry with a greater id. A reference that leads nowhere hides the error if its entry has a smaller id, and does not if it has a greater one.", "quantifier": "all models in order of ids, all texts", "why_tests_cant": "no test looks at the error of a check, and it is about all models with bad references", "anchors": ["ifc_rs/src/lib.rs:95-109", "ifc_rs_verify_derive/src/field.rs:80-137", "ifc_rs_verify_derive/src/lib.rs:125-135"]}
{"id": "C86", "title": "The message of a failed check names the attribute that holds the bad reference", "statement": "The message of a failed check names a struct, an attribute, the types allowed, the type found and an id. It is given exactly if the check fails, and id and types are those of the first bad reference. The struct is that of the entry or one embedded in it, it declares a field with the name of the attribute, and the attribute at the place of this field in the entry holds the reference. Within an entry of one type, different checked attributes have different names, so the name tells which one it is, although the struct named is often not the type of the entry: three of the four checked attributes of a wall are reported as those of Root or Product.", "quantifier": "all models, all entries of known types, all values", "why_tests_cant": "no test looks at a message, and the names come from declarations of some ninety structs embedded in each other", "anchors": ["ifc_rs_verify_derive/src/field.rs:80-137", "ifc_rs_verify_derive/src/lib.rs:50-140", "ifc_rs/src/lib.rs:103-105"]}

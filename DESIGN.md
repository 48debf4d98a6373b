# Design of the formal model of liton_point_data

The code is read as text in `/repo`; nothing was built or run.  The model and the
proofs are in `lean/`, the claims in `properties.jsonl`, their status in
`MANIFEST.json`, wrong programs tried against the theorems in `seeded/LOG.jsonl`.

## Approach

* Every function is modelled as a Lean function into an outcome type: normal
  return, thrown exception (with the state reached so far: C++ does not roll
  back), or undefined behaviour (`ub`, with its kind).  Nothing is assumed away:
  signed overflow, null / dangling / out-of-bounds pointer use, double free,
  running past a C array, `sprintf` past its buffer, reading an uninitialised
  variable are all distinct outcomes.
* `int` is a Lean `Int` whose every arithmetic result is checked against
  [-2^31, 2^31-1] (outside: `ub overflow`).  `unsigned` is a `Nat` reduced
  mod 2^32, `size_t` mod 2^64.  `static_cast<int>(unsigned)` is the two's
  complement conversion.
* Memory is a heap of blocks with fresh identifiers, pointers are
  (block, offset) with bounds-checked arithmetic, `new[]` consults an arbitrary
  environment function that decides whether the k-th allocation succeeds, so a
  theorem over all environments covers every allocation-failure point.
* `_CHECK_POINTDATA_RANGE` is a Boolean parameter `chk`: both builds are modelled.
* D1, D2 and D3 are modelled separately because they are separate source files.
* Loops `for (int i=b; i!=e; ++i)` run to `INT_MAX` and then overflow when
  `e < b`, as in C++.

## Layout of `lean/`

* `Verif/Model/*` the code; every definition cites file and lines.
* `Verif/Spec/*` small independent specifications: sets of points, traversal
  lists, abstract machine, selection lists, header reader, page layouts, ...
  They do not use functions of the model (data types and constants of the model
  such as `Zone`, `FileLog`, `Err` are shared).
* `Verif/Proof/*` helper lemmas.
* `Verif/Props/*` the theorems named in `MANIFEST.json` (`Cnn...`) and, beside
  them, examples that meet the hypotheses and the witnesses of negations.

## Plan per property

| id | modelled part | proof method |
|---|---|---|
| C01-C05 | `alloc`, `operator()`, `data_pt` on the heap model | invariant `Ready` established by `alloc` (loop invariant), address formula, injectivity of the row-major map |
| C06-C08, C10 | world of several arrays and one heap, `step` per API call | refinement to an abstract machine, induction over the history |
| C09 | `alloc` with failing `new` | exact characterisation; holds for D1, violated for D2/D3 (negation proved) |
| C11 | unsigned wrap-around in `alloc` | proved under no-wrap bound, negation proved by witness |
| C12-C15 | `SizeT` | linear arithmetic |
| C16-C18 | `RangeT` | linear arithmetic; empty ranges are a counterexample to C17 |
| C19-C22 | loop templates | loops equal an explicit list traversal, list facts about order, membership, multiplicity |
| C23-C24 | reducers | algebra over the fold; C23 false for initial value other than the identity (negation proved) |
| C25-C30 | `copy_from` | general lemma on lists of single-cell assignments; C30 is false (UB) |
| C31, C32 | tables, `check_d` | case analysis |
| C33 | `disp_data` | loop = list traversal |
| C34 | D0 | direct |
| C35-C38 | `TEC_ZONE`, `TEC_FILE` | ceil division, memcpy loops with invariants, append-only file |
| C39, C40 | `read_plt` | frame lemmas for C40; C39 composes C38 with the reading loops |
| C41-C46 | `ordered_tec.cpp` bookkeeping | direct / induction over lists |
| C47 | loops + mirror/periodic + access | composition |
| C48 | `lion_snippets.hpp` | direct |
* C49-C51: report, definedness and length of `write_plt`.  `Spec/TecReport.lean` says what the lines of the report are (a list of `Line`, each selected by one flag), what a size in megabytes is (`IsMB`: nearest tenth, ties to even) and how long a file is; it does not use the model of the writer.  Proofs in `Proof/TecR1` - `TecR6`: total correctness of every part (it returns, with this output), where C36-C42 only speak about runs that return.
* C52-C55: the xml log and its reader.  `Model/Xml/Tiny.lean` is the reader of tinyxml2 (bytes to a tree of nodes), `Model/Xml/Query.lean` the questions `ordered_tec.cpp` asks a tree and `liton_sp::xml`, `Model/Tec/ReadXml.lean` is `read_xml`.  `Spec/Xml.lean` says which texts show a tree (a relation between trees and texts: tags, quoted attributes, white space between children), without using the reader; `Spec/XmlLog.lean` says which tree a log stands for.  Plan of the proofs: every text that shows a tree is read as that tree (induction on the relation); the text of `write_xml` shows the tree of the log; `read_xml` of the tree of a log gives back the log; composed with C39 the whole chain `write_plt`, `write_xml_file`, `load_xml`, `read_xml`, `read_plt`.
- C55, C58: the log mirrors the file; file and log are written, read and used for read_plt (Verif/Props/XmlTrip.lean, Verif/Props/TecMirror.lean).
- C59: the json of a log is JSON and shows its content (Verif/Spec/Json.lean is the grammar of RFC 8259, Verif/Spec/JsonLog.lean the value of a log, Verif/Props/Json.lean the claims).
- C60: the whole file is decoded (Verif/Spec/TecBody.lean is the reader, Verif/Props/TecBody.lean the claim); C61, C62: the constructor of a variable, the row-major accessors of a zone (Verif/Props/TecData.lean).
- C63, C64: `printf` and `sscanf` of `double` are given by their definition (Verif/Model/Printf.lean, Verif/Model/Scanf.lean), so that the hypotheses about them in C53 - C55 and C59 are discharged. `Verif/Spec/Decimal.lean` says which rational number a decimal text denotes and a pattern has; the claims are error bounds between these (Verif/Props/Printf.lean, Verif/Props/Scanf.lean).
- C65 - C68: user programs. Verif/Model/Client.lean is a small language of loop bodies (assignments between elements) run on the model of the library; Verif/Spec/Client.lean says what one iteration alone computes, and when the iterations are independent, on a plain map from elements to values. C65 relates the two. Verif/Model/Heat1.lean is Example_D1_heat in this language, Verif/Spec/Heat.lean the explicit scheme for the heat equation.
- C69 - C73: from arrays to files. Verif/Model/Export.lean models the statements by which programs describe arrays to a zone, Verif/Spec/Export.lean relates the memory of numbers to that of bytes. C69 says what the description selects, C70 what the file then holds (via C50, C60). Verif/Model/Heat2.lean is Example_D2_heat up to write_plt; C71 is its loop, C72 the whole program with the file, C73 the bounds in exact arithmetic.
- C75 - C77: reductions. Verif/Model/Reduction.lean models reductions of array elements in programs, Verif/Model/Integration.lean is Example_D1_integration. C75 says what a reduction computes, C76 what the program prints, C77 what that is in exact arithmetic.
- C74, C78, C79: saving and loading. C74 composes C69, C70 and the reader for whole programs; Verif/Model/Pointwise.lean and C78 describe loops whose body stays at its point; Verif/Model/TecTests.lean is the three programs Test_D?_tecfile, and C79 says what they save and load.
- C80, C81, C82: XML documents. Verif/Model/Xml/Printer.lean is XMLPrinter; Verif/Spec/XmlDoc.lean says which texts show a document, which documents can be written and what indentation does to texts; C80 is about the reader, C81 about printing and reading, C82 about reading, printing and reading.
- C83 to C87: trees of nodes. Verif/Model/Xml/Dom.lean has the links; Verif/Spec/Dom.lean says which links show which lists of children and what each call does to the lists; C87 is for all sequences of calls.
- C88, C89: `DynArray` and `MemPoolT` (Model/Xml/Pool.lean, Spec/Pool.lean, Proof/XPool1-4.lean, Props/Pool.lean).
- C90 (`Props/Attempts.lean`): attempts to load a written file, refused or not, between `realloc`s; the whole of Test_D1_tecfile.
- C91 (`Props/XmlNumber.lean`): numbers as texts and attributes of a document, exact for every type but `float`.
- C92 (`Props/XmlAttr.lean`): the attribute lists of elements with their pointers and owned texts.
- C93 (`Props/XmlClone.lean`): `DeepClone`, `DeepCopy`, `ShallowEqual`.
- C30_exact, C27_order, C21_exact, C11_wrap (`Props/CopyAll.lean`, `Props/LoopsAll.lean`, `Props/LifecycleAll.lean`): where a claim is false of the code, the set of inputs is divided completely and the outcome stated for each part.
- C46_exact, C35_exact, C41_exact, C36_whole, C36_over, C17_exact, C24_*_none (`Props/TecFits.lean`, `Props/TecSizeAll.lean`, `Props/TecPreAll.lean`, `Props/TecBufAll.lean`, `Props/RangeNone.lean`): the claims that are false of the code, with the outcome on every side of the exact bound.
- C94 (`Props/Program.lean`): programs of any form. A deep embedding of statements (`Model/Program.lean`) is executed by the model of the library and by the abstract machine (`Spec/Program.lean`); simulation by induction over the statement.
- C95 (`Props/PointTests.lean`): three of the repository's test programs transcribed as `Stmt`s (`Model/PointTests.lean`) and evaluated by the kernel.
- C96 (`Props/Silent.lean`): both builds do the same exactly as long as no check fails; by induction on the program over the abstract machine, carried over by C94.
- C59_exact (`Proof/Json5.lean`, `Proof/Json6.lean`): a text printed without escaping is read as itself only if it needs none, whatever follows (`quote_exact`); lifted to values by `raw_exact` over the printed structure.
- C50_exact, C50_exact_else, C49_any (`Spec/TecSnug.lean`, `Proof/TecSnug.lean`, `Proof/TecSnug2.lean`): exact bounds of the texts of a file. Forward: total correctness (`body_total`) under the bounds; backward: every `sprintf` that a successful run passed gives its bound, the texts of the log through `fine_fileJson`, `fine_fileXml`. Nothing is thrown on the way (`Mute`).
- Exact versions of C07 and C11: `Spec/Verdict.lean` says what becomes of a request with any unsigned arguments; `Proof/AllocAll.lean`, `AllocAll2.lean` follow `alloc` without assumptions on the sizes; `Props/Verdict.lean`.
- C97: `get_time` (`Model/GetTime.lean`, `Spec/GetTime.lean`, `Props/GetTime.lean`).
- Exact version of C53: `Spec/XmlExact.lean` says which texts stand for themselves; `Proof/XmlExact1.lean` (values) to `XmlExact5.lean` (documents) read the written text from left to right and invert the reader; `Props/XmlExact.lean`.
- Exact versions of C09 and C10: `Spec/LifecycleExact.lean` (constructors that fail half way), `Proof/LifecycleExact.lean`, `Props/LifecycleExact.lean`.
- C82 exactly: `Spec/XmlAgain.lean` (what is left of a document after printing and loading, `settleAll`), `Proof/XmlDoc4.lean` (the text of a compact print), `Proof/XmlDoc5.lean` (what is read from it), `Props/XmlAgain.lean`.
- C98 references to characters: `Spec/XmlDoc.lean` (`Numeral`, `RefText`, `WrongRef`; the UTF-8 bytes are those of `String.utf8EncodeChar` of the Lean library), `Proof/XmlDoc1.lean`, `Props/XmlRefs.lean`; answers of queries (C91): `Props/XmlQuery.lean`.
- C56 (`Props/XmlForeign.lean`): which trees `read_xml` can read and as what, for every tree (`Spec/XmlForeign.lean`); the other trees are undefined behaviour.
- C99: a second model of the XML reader (Model/Xml/InPlace) works on an array with pointers as indices, deferred decoding and undefined behaviour outside the array. It is proved equal to the reader on lists (Model/Xml/Tiny), on which all other XML theorems rest, for every content and every order of later queries.
- C25_exact, C82_exact_indented: two-sided versions for every checked copy inside the contract and for indented printing.
* `Verif/Proof/AllocSize.lean`, `Verif/Proof/AllocEdge.lean`, `Verif/Props/AllocBeyond.lean`: the sizes and the storage after an `alloc` that returned, for all `unsigned` arguments (C11_reports, C11_beyond, C11_all).
* `Verif/Spec/XmlTop.lean`, `Verif/Proof/XmlTop.lean`, `Verif/Proof/XmlTop2.lean`, `Verif/Props/XmlTop.lean`: documents with texts outside of their elements, printed with indentation (C82_exact_wide, C82_wide).
- C100: the reader of Model/Xml/Tiny with the line counter (Model/Xml/Lines); the specification knows places of the text and counts line feeds before them.
- C101, C102: calls of XMLPrinter by a program (Model/Xml/Stream): on the printer of C81, and on the printer without a file, which writes into the DynArray of C88; Spec/XmlStream says which calls describe which nodes and what a program sees of the buffer.
- C103: white space of texts collapsed at their place in the character buffer of C99 (Model/Xml/Collapse), against the words of a text (Spec/XmlCollapse).
- C104: the loops with which the test programs fill arrays at half points (Model/Puts), against the assignment that reaches an element last (Spec/Puts).
- C105: Test_D2_PointData_H as a whole (Model/PointTests2, Spec/PointTests2), as C95.
- C106: chains of steps of a handle over the nodes of C83 (Model/Xml/Handle), against where they lead in the lists of children (Spec/Handle).
- C107, C108: accesses without checks and copies with zones over the ends of the arrays, by places in the storage (Spec/Stray, Spec/CopyAny); the model of C02 and C25 unchanged.
- C109: `Accept` on the links of the nodes (Model/Xml/Visit), with a visitor given by its answers.
- C110: reader and printer for both values of `processEntities` (Model/Xml/Entities), related to those of C52 and C81.
- C111: `SetError` on an array of characters (Model/Xml/ErrText), the text as a concatenation (Spec/XmlErrText).
- C112: number overloads of the printer (Model/Xml/StreamNumber) from C91 and C101.
- C113: the reader with lines also carries what is told about an error (Model/Xml/Lines); C100_error and C111 together give the error of a document after reading (Model/Xml/LoadError).
- C114: a copy of the reader that counts the calls in each other and gives up at a bound (Model/Xml/Stack), compared with the reader without bound; heights of trees and towers of start tags (Spec/XmlStack).
- C115: programs as lists of statements that write to two streams (Model/SizeTests); a statement-wise trace is evaluated by the kernel and turned into the two files by induction, so that times and random numbers stay arbitrary.
- C116: the programs of the two three-dimensional tests (Model/PointTests3) run on tables (Proof/Fast, proved equal to the abstract machine of C94) inside the kernel; the second one section by section with symbolic other arrays (Proof/PointTestsH and following). `kernel_rfl` (Proof/KernelRfl) is a tactic whose proof term is `Eq.refl`; the kernel alone checks it, so it adds no trust. C95_D2C and C105 use the same tables.
- C117: the functions that delete and copy nodes with a stack of limited size (Model/Xml/StackDom); the proofs follow those of C86 and C93 with the depth of the trees (`Deep`, `Shallow` of Spec/XmlStackDom).
- C118: `%f` (Model/Xml/Float) as `%lf` of C64 and C91, with 24 bits; the text of eight digits is exact to half a unit of the last of them, and two floats differ by at least 2^-24 of their size, which gives the condition of C118_exact.
- C119: the conversions of C91 for all texts instead of printed ones; ties and overflow of `%lf` as those of `%f` in C118 (Proof/ScanfTie). C112_float: the programs of C112 with `PushText(float)` (Spec/XmlFloatTable), from C101 and C118.
- C120: `Parse(p, len)` on an array of bytes (Model/Xml/ParseMem), related to `LoadFile` of C52.

## Trusted base

* **Kernel**: Lean 4.33.0 kernel; no axioms of our own, no `sorry`, no
  `native_decide`, no `bv_decide`.  `decide +kernel` is used for concrete
  witnesses: it is checked by the kernel and adds no axiom.
* **Axioms**: at most `propext`, `Classical.choice`, `Quot.sound`; the exact set
  for each theorem of `MANIFEST.json` is listed at the end of this file.
* **Reading of the code**: that the definitions in `Verif/Model` say what the
  cited lines say.  The code was not executed, so this is not tested.
* **Reading of the claims**: that the statements in `Verif/Props` with the
  definitions in `Verif/Spec` say what `properties.jsonl` says.
* **C++ abstraction** (assumptions about language, library and platform):
  - two's complement `int` of 32 bits, `size_t` and `long` of 64 bits, little
    endian, signed `char`, IEEE-754 `float` and `double`;
  - `new T[n]` either returns a fresh block or throws `std::bad_alloc`; other
    containers (`std::vector`, `std::string`, `std::map`) never run out of memory;
  - `std::map` is an ordered list, `std::bitset(string)` as in the standard or
    as in libstdc++ (parameter `strict`);
  - `fopen` may fail (arbitrary oracle), `fwrite`, `fclose`, stream output never
    fail (the code ignores their results); `ftell` is the number of bytes written;
    the file content is visible to readers once the stream is closed;
  - `printf` conversions of `double` (`%le`, `%lf`, `%.5lf`), stream output and
    input of numbers, `clock`, `time`, `rand` are arbitrary parameters
    (C63 and C64 are about the conversions of glibc);
  - element types of arrays are an arbitrary type `V` whose elements are copied
    as a whole; comparisons and arithmetic in reducers use an abstract ordered
    type or ring (no rounding);
  - alignment and strict aliasing are not modelled;
  - one thread.

## What is modelled

| source | modelled | where |
|---|---|---|
| PointData.hpp 6-98 | flags, tables, version text, reducers | Model/Flags, Model/What |
| PointData_0D.hpp 16-102 | all members | Model/D0 |
| PointData_1D.hpp 21-574 | `DIM`, `RangeT`, `SizeT`, `For`/`Reduce` templates, `PointData`: constructors, destructor, `alloc`, `realloc`, `clear`, `operator()`, `data_pt`, `size`, `disp_data`, checks, all `copy_from` overloads, `read_plt` | Model/D1, Model/Api, Model/Tec/ReadPlt |
| PointData_2D.hpp 21-724 | same | Model/D2, ... |
| PointData_3D.hpp 21-881 | same | Model/D3, ... |
| texts of the exceptions | `what()` of every exception | Model/What |
| ordered_tec.cpp 25-155, 195-371, 437-532 | writers of numbers, logs, json, xml, echo texts | Model/Tec/Basic, Model/Tec/Log |
| ordered_tec.cpp 538-800 | `TEC_FILE` | Model/Tec/File |
| ordered_tec.cpp 802-1319 | `TEC_ZONE`, `TEC_DATA::minmax` | Model/Tec/Zone |
| ordered_tec.h 52-181, 498-517 | classes, auxiliary data, type codes | Model/Tec/* |
| lion_snippets.hpp 23-41, 117-151 | `open_file_c` (inside `openFile`), `exec_except`, `exec_time` | Model/Tec/File, Model/Snippets |
| Example/Test programs | the mirror / periodic filling statements; loops (see below) | Model/Fill, Model/Client |
* tinyxml2.cpp / tinyxml2.h: `XMLUtil` (characters, names, entities, character references, BOM), `StrPair`, `XMLAttribute::ParseDeep`, `XMLElement::ParseAttributes`, `ParseDeep` of all nodes, `Identify`, `XMLDocument::Parse` and `LoadFile` (`Model/Xml/Tiny.lean`); `FirstChildElement`, `NextSiblingElement`, `GetText`, `Attribute`, `Query...` (`Model/Xml/Query.lean`).
* lion_snippets.hpp 153-196, `liton_sp::xml` (`Model/Xml/Query.lean`); ordered_tec.cpp 157-193 and 367-435, `read_xml` (`Model/Tec/ReadXml.lean`).
* `TEC_DATA(T *)` (ordered_tec.h 520-559) and the accessors `Max_C`, `Begin_C`, `End_C`, `Skip_C` (ordered_tec.h 132-153) in Verif/Model/Tec/Data.lean; the sizes and names of types are those of x86-64 Linux.
* `%le`, `%lf`, `%.5lf` of `printf` and `%lf` of `sscanf` (exact value rounded to nearest, ties to even, as glibc does) in Verif/Model/Printf.lean and Verif/Model/Scanf.lean: part of the C library, not of the repository. All theorems but C63 and C64 hold for any conversions (parameters `Fmt` and `rd`).
* The loops of user programs (Verif/Model/Client.lean); test/Example_D1_heat/Example_D1_heat.cpp 31-77 without output, clock and stop condition (Verif/Model/Heat1.lean). The arithmetic is a parameter.
* test/Example_D2_heat/Example_D2_heat.cpp 45-121 without output, clock and stop condition (Verif/Model/Heat2.lean); the set-up of zones in the programs of test/ (Verif/Model/Export.lean).
* test/Example_D1_integration/Example_D1_integration.cpp 23-52 without the other output and the clock (Verif/Model/Integration.lean).
* test/Test_D1_tecfile/Test_D1_tecfile.cpp 25-54, test/Test_D2_tecfile/Test_D2_tecfile.cpp 25-61, test/Test_D3_tecfile/Test_D3_tecfile.cpp 25-63 without write_echo, write_xml, disp_data (Verif/Model/TecTests.lean).
* tinyxml2.cpp 726-737, 1179-1183, 1227-1231, 1277-1281, 1324-1328, 1952-1964, 2234-2255, 2289-2298, 2365-2543, 2586-2637, 2686-2788 without the overloads for numbers, tinyxml2.h 2139-2262: the printer (Verif/Model/Xml/Printer.lean).
* tinyxml2.cpp 742-761, 794-934, 940-985, 1088-1115, 1993-2038, 2134-2149, tinyxml2.h 936-950, 1868, 1885-1897: creation, insertion, search and deletion of nodes (Verif/Model/Xml/Dom.lean). Only links; nodes are numbers, a new node gets a number not in use.
* `Model/Xml/Pool.lean`: `DynArray` and `MemPoolT` of tinyxml2.h:186-446 with `_mem`/`_pool`, `new[]`, `memcpy`, `delete[]`, blocks, the free list inside the items, and the counters as 32 bit `int`; failing requests for memory are an argument.  The nodes of `Dom.lean` are numbered, and `_unlinked` is a list there: C88 and C89 are what justifies this.
* Test_D1_tecfile.cpp:57-65, any sequence of `realloc` and `exec_except` of `read_plt` (`Model/Attempts.lean`, `Model/TecTests.lean`).
* `XMLUtil::ToStr`, `ToInt`, `ToUnsigned`, `ToInt64`, `ToBool`, `ToDouble`, `SetBoolSerialization`, tinyxml2.cpp:369-382, 552-652, and `SetAttribute`, `SetText`, `Query...Attribute`, `Query...Text`, `...Attribute`, `...Text` of elements (`Model/Xml/Number.lean`), with `%.17g` and `%.8g` as in glibc.
* The attribute chain of `XMLElement`: `FindAttribute`, `Attribute`, `FindOrCreateAttribute`, `CreateAttribute`, `SetAttribute(const char*, const char*)`, `DeleteAttribute` (both), `ParseAttributes` (of attributes already cut out of the text), the destructor, and `StrPair::SetStr` with the texts it owns (`Model/Xml/Attr.lean`).  In the model of copies (`Model/Xml/Clone.lean`) and in the parser the attributes are a list; C92 shows the chain is one.
* `ShallowClone`, `ShallowEqual`, `DeepClone`, `DeepCopy` on the linked nodes of `Dom.lean` (`Model/Xml/Clone.lean`).  The place of a new node or attribute is chosen by a function about which only is known that it gives a free place.
* `Model/Program.lean`: user programs over the library (`Stmt`): calls, `size()` questions, `range`, `disp_data`, the loop and reduction templates of all three dimensions including those over named dimensions, program loops, branches, `throw`, `try`/`catch`. Simplifications: program computations are pure functions of the program's variables, a program loop has a number of passes known when it begins, `catch` catches everything, recursion of the program is not modelled; `disp_data` prints a never assigned number as `fmt none` instead of being undefined.
* `Model/PointTests.lean`: Test_D1_PointData_C.cpp, Test_D1_PointData_H.cpp, Test_D2_PointData_C.cpp; numbers are rationals printed as fractions, `exec_except` keeps the exception only.
* `Model/GetTime.lean`: lion_snippets.hpp:44-60, from the broken-down local time on; `strftime` after the C standard for the conversions of the default format, the others are a parameter.
* Model/Xml/InPlace: `StrPair` with its flags and both pointers, `ParseText`, `ParseName`, `GetStr` with read and write pointer, `GetCharacterRef` going backwards, entity table, comparison of C strings inside the buffer, `Identify`, `ParseDeep` of all nodes and attributes, `ParseAttributes` with the search for an attribute of the same name, `Parse`.
* Model/Xml/Lines: `_parseCurLineNum`, `_parseLineNum` of nodes and attributes, `_errorLineNum`, as they are set by `SkipWhiteSpace`, `ParseText`, `Identify` (with setting the counter back in front of a text), `ParseDeep`, `ParseAttributes`, `SetError`.
* tinyxml2.cpp 2365-2543, 2586-2637, 2686-2728, tinyxml2.h 2139-2262: the calls of a printer by a program, and the printer without a file, whose `_buffer` is the `DynArray` of Model/Xml/Pool (Model/Xml/Stream); without the overloads for numbers, `_processEntities` is true and nothing is overridden.
* tinyxml2.cpp 238-262, 358-360, 1144-1146: `CollapseWhitespace` in the character buffer and the flag that asks for it (Model/Xml/Collapse).
* Test_D3_PointData_H.cpp 68-172: loops over all points whose body assigns at the loop indices or at the last index (Model/Puts), as programs of Model/Program.
* Test_D2_PointData_H.cpp 21-152 as a program of Model/Program (Model/PointTests2).
* tinyxml2.h 1953-2102: `XMLHandle`, `XMLConstHandle` (Model/Xml/Handle).
* Test_D3_PointData_H.cpp 75-149: the loops that fill `x1` to `x6` (Model/PutsFaces).
* tinyxml2.cpp 726-737, 1179-1183, 1227-1231, 1277-1281, 1324-1328, 1952-1963, tinyxml2.h 468-507: `Accept` and the visitor (Model/Xml/Visit). Simplification: callbacks change no node.
* tinyxml2.cpp 1143, 1365, 1821, 1993-1996, 2449-2499, 2733: `processEntities = false` (Model/Xml/Entities).
* tinyxml2.cpp 1969-1990, 2301-2347, tinyxml2.h 1796-1823: error names and texts (Model/Xml/ErrText). Simplification: the caller's text arrives formatted.
* tinyxml2.cpp 2546-2583, 2639-2684: `PushAttribute`, `PushText` of numbers (Model/Xml/StreamNumber).
* tinyxml2.cpp 2033-2043, 2152-2162, 2184-2256: the error after `LoadFile` and `SaveFile` (Model/Xml/LoadError); the third argument of `SetError` in the reader (Model/Xml/Lines).
* tinyxml2.cpp 988-1086, 1884-1908, 2349-2363: the reader with the number of calls of `ParseDeep` in each other, 726-737, 1952-1964: printing with the number of calls of `Accept` in each other (Model/Xml/Stack).
* test: Test_D{1,2,3}_SizeT.cpp, Test_D{1,2,3}_RangeT.cpp from line 21 and Test_D0_PointData_C.cpp from line 25 to the end, statement by statement (Model/SizeTests).
* test: Test_D3_PointData_C.cpp 23-190 and Test_D3_PointData_H.cpp 21-209, without the output of `disp()` (Model/PointTests3).
* tinyxml2: the stack needed by tinyxml2.cpp 755-801, 828-838, 1088-1101, 2014-2038, 2066-2077, 2134-2149 (Model/Xml/StackDom).
* tinyxml2: reading of `float`, tinyxml2.cpp 627-633, 1412-1418, 1559-1564, 1699-1709, 1746-1751, tinyxml2.h 1356-1362 (Model/Xml/Float).
* tinyxml2.cpp 2256-2284, tinyxml2.h 1669: `XMLDocument::Parse` from memory (Model/Xml/ParseMem); the clean-up after an error is not part of it.

## What is not modelled

* Of the XML reader: strings of `INT_MAX` bytes and more.
* tinyxml2: callbacks of visitors that change the document.
* `disp`/`disp_range` style helpers that only print sizes are covered as far as
  C33 needs; `disp_env`, `os`, `compiler`, `cpp_std`, `debug_mode`,
  `get_time` (lion_snippets.hpp 46-113) only return texts of the platform.
* Copy constructor and assignment of `PointData` are deleted; programs that use
  them do not compile.
* Concurrency, performance. The rounding of sums and products of `double` (arithmetic is a parameter);
  only the rounding of `printf` and `sscanf` is defined.

## Simplifications

* The byte memory used by the Tecplot writer and the memory of arrays are
  separate heaps.  Where both meet (C39) a hypothesis says that the bytes handed
  to `TEC_DATA` are the image of the array (`ImageOf`).
* Reading an uninitialised array element copies the marker "indeterminate"; it
  is not undefined behaviour by itself (so that copies of partly initialised
  arrays can be described), but an indeterminate value never equals a written one.
* `TEC_ZONE` hides members of its base class; the hidden members are not modelled.
* `Size` members of the logs are kept in bytes (the code stores megabytes as
  `double`).
* The order of evaluation of the operands in the filling statements is fixed.

## Disagreements between claims and code (findings)

Each has a theorem with a concrete witness unless it is marked (remark).

Point data:
* Sizes: `size_point` wraps mod 2^32, so 65536 x 65536 points allocate nothing
  (`C11_false`); sizes above `INT_MAX` become negative; the size check accepts
  n = 2^32-1, p = 1 and overflows for n = p = 2^30 (`C07_false`).
* 2D/3D `alloc`: if the second or third `new` fails, the object is neither empty
  nor usable; element access is undefined even in the checked build
  (`C06_false`, `C06_false_d3`, `C09_false`, `C09_false_d3`); the sizing
  constructor then leaks (`C10_false`).
* `clear` in 2D/3D leaves `pt0` dangling (remark); `data_pt` does not test for
  empty arrays (remark); a half-located 1D array allocates one point for (0,0,0)
  (remark); `realloc` throws on an empty array (`C07_partial`).
* `is_overlap`/`overlap` of empty ranges (`C17_false_*`); loops over negative
  sizes are undefined (`C21_false_*`); reducers merge the old value twice
  (`C23_false_d1`); `MAX_ABS` over an empty range keeps a negative value
  (`C24_false_d1`).
* `copy_from`: writes a point for an empty source zone strictly inside a
  half-located target (`C25_false`); user ranges are not tested against the
  array (`C27_false`, `C27_false_alias`); unallocated half-located target writes
  through null (`C28_unallocated`); without checks, zones with a gap are
  undefined (`C28_false`, `C30_false`); zones that touch copy a point in half
  dimensions (`C30_false_half`).
* `disp_data` of an unallocated half-located array reads through null
  (`C33_unallocated`).
* Mirror / periodic filling with more virtual than interior points reads outside
  the interior (`C47_count`).

Tecplot writer:
* `gather_real_size` accepts negative `Skip`, `Begin`, `End`, `Max`
  (`C35_negative_*`) and overflows in `Begin + End` (`C35_false`).
* `make_buf` overflows in the loop counter or the product of sizes
  (`C36_false_stride`, `C36_false_product`).
* A zone with `Skip = -1` passes the checks; the old file is destroyed before
  the failure (`C41_false`); the stream stays open, buffers leak and
  `last_log.Error` stays empty (remark).
* `get_minmax` with NaN misses extrema (`C37_nan`) and reads out of bounds for
  no elements (`C37_empty`).
* Buffers of 200 (json, xml) and 100 (echo) characters overflow for long names
  (`C46_false*`).
* json and xml texts are not escaped (remark); the header is ambiguous for texts
  that contain NUL (`C42_nul`); negative depth overflows the tab loop (`C45_depth`).
* `set_echo_mode` (`C44_false`, `C44_false_order`).
* `read_plt` trusts the logged size (`C40_size`) and, without checks, the
  component (`C40_component`); it handles `float` and `double` only.
* The text printed on stdout for `End` has other spaces than the logged text (remark).
* `exec_time` with N = 0 divides 0 by 0 (`C48_time_cases`).
* The line `Real_Max = [` of the report gives the first `Real_Dim` entries of `Real_Max`, not the entries that differ from 1: 1 x 3 x 3 points are reported as `Dim = 2   Real_Max = [ 1 3 ]` (`C49_false_max`).
* The lines of the report are put together with `sprintf` in buffers of 100 bytes (names of zones) and 200 bytes; a zone name of 80 characters overruns the buffer (`C49_false`).
* `write_echo` writes the lines kept in the log with `c_str()`: a NUL in a name cuts the line.
* `gen_xml` escapes nothing, and uses the names of variables and of auxiliary data as element names: a variable `rho u` or `2nd`, a title with `<`, auxiliary data named `1` give an xml log that cannot be loaded again (`C53_false`); a title `&lt;` comes back as `<`.
* `read_xml` makes `std::string`s of null pointers if a text of the log is empty or blank (title, path, zone name, auxiliary value): undefined behaviour for every such log (`C54_false`).  A missing node is undefined behaviour, not an exception (`C56_needs`).
* `read_xml` does not clear the log it reads into: reading twice doubles zones and variables (`C56_appends`).
* C59: gen_json escapes nothing. A title with a quotation mark or a path with a backslash gives a text that is not JSON; a path like `out\new` gives JSON with another path. A NaN or an infinity as smallest or largest value is printed as `nan`, `inf`, which JSON does not have.
* C61: ordered_tec.h:34 says that `byte` is the same as `char`; it is `signed char`, and a `char *` is refused. The text of the refusal is printed into 300 bytes; the name of a class (often long for templates) overruns it (`C61_false`).
* C64: the xml log keeps seven digits of a `double`; what `read_xml` reads differs from what was written (`C64_exact_false`). `min`/`max` of a log that was read must not be compared with the data for equality.
* C67: Example_D1_heat prints all of `u` (`u.disp_data()`, line 80), but never assigns the virtual points of component 1: `u(1, -1)` and `u(1, N)` are indeterminate numbers in the output (`C67_prints_unassigned`).
* C69: the set-up of a zone with `size(d, RA::ALL)` in the example and test programs is right for center-located dimensions only; for a half-located one it misses the additional point, and the file holds other elements (`C69_half`).
* C77: Example_D1_integration integrates with one rectangle too many: the answer for x is N / (2(N-1)), not 1/2, for every N.
* `XMLPrinter::OpenElement` prints the indentation of an element even when a text stands before it (tinyxml2.cpp:2514-2532): without compact mode the text `t` of `<a>t<b/></a>` has four more spaces after every saving and loading (C81).
* `XMLPrinter::PrintString` prints a carriage return as it is, so the value of `&#13;` becomes a newline when it is saved and loaded; a text of white space that was written with character references is lost (C82_false_return, C82_false_blank).
* `XMLDocument::Parse` stops without an error at an end tag at the top: `</a>` is loaded as an empty document, which is saved as an empty file, which cannot be loaded (C82_false_empty).
* `XMLNode::InsertAfterChild(x, a)` where `a` is the last child and directly behind `x` follows a null pointer (tinyxml2.cpp:927-930): `x` was not the last child when it was tested, but it is after `a` was unlinked (C84_null).
* The insertions do not test whether the node is the parent or above it: a cycle arises, and the deletion of the document does not reach these nodes through its children (C83_cycle). A document as the inserted node follows the null `_memPool` (C83_document).
* tinyxml2.h:289-303: `DynArray::EnsureCapacity` computes `cap * 2` in `int`: with 10 initial entries the entry number 1610612735 is undefined behaviour (the guarding assertion is compiled out) (C88_limit).
* tinyxml2.h:362-386: `MemPoolT::Alloc` counts all items ever handed out in an `int` that never decreases: 2^31 allocations are undefined behaviour even if at most one item is in use (C89_counter_false).
* tinyxml2.h:365-366: if `_blockPtrs.Push` throws, the new block is lost (C89_leak_false).
* Test_D1_tecfile.cpp:57 reads component 3 of an array with three components and expects the exception of `check_n`.  Without `_CHECK_POINTDATA_RANGE` there is no such test and the loop writes through `pt0[3]` behind the end of the array (`C90_test`, second part).
* `XMLUtil::ToStr(float)` prints 8 digits, nine are necessary: the neighbours 10.0000095 and 10.0000105 are both printed as 10.00001 (`C91_float_false`).
* `SetText(true)` on an element that has a child element, printed with indentation: the text is loaded as `true` with spaces behind it, which `ToBool` does not accept, because it compares the whole text; numbers are accepted, because `sscanf` does not look at what follows (`C91_saved_text_false`).
* `SetBoolSerialization` changes the words that are written, but not those that are read (`C91_words_false`).
* tinyxml2.cpp:180-190: `StrPair::SetStr` frees the old text before it measures and copies the new one.  `e->SetAttribute(n, e->Attribute(n))` with a value that was set by a call reads freed memory (`C92_self`); the same holds for `SetText(GetText())` and `SetValue(Value())`.  With a value that was parsed nothing happens, because that text belongs to the document.
* `XMLElement::ShallowEqual` compares the values of the attributes, not the names: `<Item x="1"/>` and `<Item y="1"/>` are equal; `XMLText::ShallowEqual` does not compare CDATA (`C93_equal_false`).  A document is not equal to itself (`C93_equal_self`).
* `XMLDocument::ShallowClone` returns null, so `DeepClone` of a document returns null instead of a copy (`C93_document`); `DeepCopy` is the only way.
* `alloc` computes `size_point * N` in 32 bits: seven components of 2^30 points are given storage for three; `alloc` returns, `size()` reports 2^30 points, components 0 and 4 are the same elements, component 3 lies behind the storage (`C11_false_alias`).
* An unchecked `copy_from` decides dimension by dimension: a gap in the first dimension without common points is undefined behaviour, zones that touch there hide any gap in later dimensions (`C30_exact`).
* `gather_real_size` accepts every negative stride; the real size it computes for stride -k and n points is -(n/k), plus one if k does not divide n (C35_exact_real), so 1 when k > n and otherwise zero or negative.
* The longest file name that the log can hold is 173 characters, the longest zone name 177, title 183, path 177 (C46_exact); nothing checks these bounds.
* `disp_data` of an array that was never allocated prints the headings (2D, 3D) if some dimension is at centers, and reads through a null pointer if all dimensions are at half points (`Spec/Program.lean`, `C33_unallocated`).
* Test_D1_PointData_C.cpp:70-71, Test_D1_PointData_H.cpp:64 and Test_D2_PointData_C.cpp:91-92 print elements of a constant array that nothing ever assigned (`C95_D1C`, `C95_D1H`, `C95_D2C`).
* Test_D2_PointData_C.cpp:41 asks for 720575935010570 points; the product wraps to 681826058, and if 2.7 GB are granted `alloc` computes row pointers outside them (`C95_D2C_big`): the test relies on memory being refused.
* test/CMakeLists.txt:19 defines `_CHECK_POINTDATA_RANGE` for the configuration DEBUG only.  The tests of the point arrays catch the exceptions of checks on purpose; in any other configuration they are the programs of `C95_unchecked`, which are undefined, and ctest runs them all the same.
* `SizeT::check` adds the numbers of virtual points as `int`: 2^32-1 and 1 pass, 2^30 and 2^30 are undefined (C07_exact gives all cases). `alloc` multiplies in `unsigned`: the storage never has 2^32 elements or more, so larger requests are never met although `alloc` may return normally (C11_never).
* lion_snippets.hpp:57: the result of `strftime` is not looked at; a format whose text has 100 characters or more makes `get_time` read an indeterminate array (C97_limits).
* tinyxml2 leaves an `&` alone unless one of five names with `;` or a number follows (`AT&T` loads unchanged), but drops the `&` of `&#` at the end of a text, and reads `&#!#65;` as `A`: the digits are read backwards from the `;` to the nearest `#` (C53_literal, `Reference`).
* The way out after an `alloc` that ran out of memory half way is `clear`, although no successful `alloc` preceded it; after an `alloc` refused at its first request `clear` throws (C09_exact). A caller cannot tell the two apart from the exception; `size()` tells.
* tinyxml2 accepts texts outside of the elements, `x<a/>`, and writes them back; a text behind the last element (possible in front of a stray end tag) makes the saved file unreadable, and the first text loses leading white space when the document has no byte order mark (C82_exact).
* `GetCharacterRef` accepts references to numbers that are no characters: `&#x100000041;` is read as `A`, `&#xD800;` as bytes that are no UTF-8, `&#9999999;` as nothing, `&#0;` and `&#;` cut the text (C98_false, C98_dropped). With assertions on, some of these stop the program (tinyxml2.cpp:505-511); the model is without assertions.
* C56_strange: `read_xml` reads `size_i="-1"` as 4294967295, `Real_Dim` 2.9 as 2, a file type that is no number as -1 and a file position that is no number as 0, without a report; of two auxiliary values with one name the last counts, of all other elements the first.
* C36: the exact condition for `make_buf` (`C36_exact`) is weaker than the product of the three `Max` fitting `int`: a zone with more points than an `int` can count is copied correctly when the places of the selected points are small enough, and it is undefined otherwise.
* `XMLPrinter::PushAttribute` and `CloseElement` check nothing when `TIXMLASSERT` is empty: an attribute pushed after a text is printed into the text, and a `CloseElement` too many pops an empty array (C101_attr_false, C101_close_false).
* Test_D2_PointData_H.cpp 85-98: the loops that fill `x3` never assign its far corner (C104_corner), and `disp_data` prints it: the output of the test contains an indeterminate number. Test_D3_PointData_H assigns all elements (C104_faces).
* `copy_from` never compares its zones with the sizes of the arrays, even with checks: a zone over the end of a row addresses the next row, and one over the end of the storage is undefined behaviour (C108). Only the overlap of the two zones with each other is tested.
* `XMLVisitor`: `false` from `VisitEnter` skips the children only; the siblings are visited unless `VisitExit` answers `false` too, contrary to the comment at tinyxml2.h:453-454 (C109_comment).
* `XMLPrinter::PrintString` writes nothing if the document was constructed with `processEntities = false`: the pointer `q` is moved inside of the `if ( _processEntities )` only, so the final flush has the length 0. Every attribute value and every text outside of CDATA sections is lost on saving (C110_save, C110_false).
* `ErrorStr` is documented as a diagnostic with location and line number, but is empty for every error that is set without a format (14 of the 20 calls of `SetError`, for example an unclosed comment), although number and line are known (C111_silent_false).
* tinyxml2 (this version) has no limit of the depth of elements: `XMLNode::ParseDeep` calls itself for every start tag, so a malformed or malicious file exhausts the stack (C114_false).
* Test_D2_SizeT, Test_D3_SizeT, Test_D2_RangeT, Test_D3_RangeT: the lines that ask for a dimension that does not exist (`s2.in(2)`, `b.bound(2, FL::P)`, ...) read outside of an array unless `_CHECK_POINTDATA_RANGE` is defined (C115_undefined); the one-dimensional tests then print wrong answers as if nothing had happened, among them an overlap of negative size (C115_unchecked).
* Test_D0_PointData_C.cpp:45 prints an element of a constant array that can never have been assigned (C115_d0). Test_D2_RangeT.cpp:13 writes to files named `tset_...`, the other tests to `test_...`.
* Test_D3_PointData_C.cpp:118-119 and Test_D3_PointData_H.cpp:189-190 print elements of constant arrays that can never have been assigned (C116_const, C116_half_const). Test_D3_PointData_C prints a negative zero: the image of 0 with the opposite sign (example beside C116).
* tinyxml2: the destructors of nodes and `DeepClone` call themselves once for every level of the tree; a document deep enough exhausts the stack when it is destroyed or copied (C117_false).
* tinyxml2: a `float` written and read again may differ in the last bit: `%.8g` has one digit too few (C118_false); it never does if the first eight digits are above 16777216 (C118_exact).
* tinyxml2: `ToInt`, `ToUnsigned`, `ToInt64` and `ToBool` are undefined for texts that show an integer out of range, as `sscanf` is; the queries of attributes and texts of foreign documents are exposed to this (C119_int). `ToUnsigned` takes negative numbers modulo 2^32 without complaint (C119_unsigned).

## Tests of the theorems

`seeded/LOG.jsonl` lists wrong programs: one edit of a model definition in a
scratch copy, the claim it breaks, and the theorems whose proofs no longer check
(`theorems_failed`, including those that depend on a failed lemma;
`first_failures` are the declarations that fail themselves).

## Axioms of each theorem

(names are in `Verif.Props`)

* **Classical.choice, Quot.sound, propext** (482 theorems): `C01`, `C02`, `C04`, `C05`, `C06_partial`, `C07_partial`, `C07_exact`, `C07_exact_iff`, `C08`, `C09_partial`, `C09_exact`, `C10_partial`, `C10_partial_default`, `C10_exact`, `C11_reports`, `C11_beyond`, `C11_all`, `C11_partial`, `C11_wrap`, `C11_never`, `C11_exact`, `C12_d1`, `C12_d2`, `C12_d3`, `C13_d1`, `C13_d2`, `C13_d3`, `C14_d1`, `C14_d2`, `C14_d3`, `C15_d1`, `C15_d2`, `C15_d3`, `C16_d1`, `C16_d2`, `C16_d3`, `C17_exact_d1`, `C17_exact_d2`, `C17_exact_d3`, `C17_d1_partial`, `C17_d2_partial`, `C17_d3_partial`, `C18_d1`, `C18_d2`, `C18_d3`, `C19_d1`, `C19_d2`, `C19_d3`, `C20_n`, `C20_n_wrap`, `C20_d1_n`, `C20_d2_n`, `C20_d3_n`, `C20_d2_axis1`, `C20_d2_axis1_n`, `C20_d3_axis2`, `C20_d3_axis2_n`, `C20_d3_axis1`, `C20_d3_axis1_n`, `C21_d2_partial`, `C21_d3_partial`, `C22_n`, `C22_d1`, `C22_d1_n`, `C22_d2`, `C22_d2_n`, `C22_d3`, `C22_d3_n`, `C22_d2_axis1`, `C22_d2_axis1_n`, `C22_d3_axis2`, `C22_d3_axis2_n`, `C22_d3_axis1`, `C22_d3_axis1_n`, `C23_false_d1`, `C23_n_partial`, `C23_d1_partial`, `C23_d1_n_partial`, `C23_d2_partial`, `C23_d2_n_partial`, `C23_d3_partial`, `C23_d3_n_partial`, `C23_d2_axis1_partial`, `C23_d2_axis1_n_partial`, `C23_d3_axis2_partial`, `C23_d3_axis2_n_partial`, `C23_d3_axis1_partial`, `C23_d3_axis1_n_partial`, `C24_n_none`, `C24_d1_none`, `C24_d1_n_none`, `C24_d2_none`, `C24_d2_n_none`, `C24_d3_none`, `C24_d3_n_none`, `C24_d2_axis1_none`, `C24_d2_axis1_n_none`, `C24_d3_axis2_none`, `C24_d3_axis2_n_none`, `C24_d3_axis1_none`, `C24_d3_axis1_n_none`, `C24_n_partial`, `C24_d1_partial`, `C24_d1_n_partial`, `C24_d2_partial`, `C24_d2_n_partial`, `C24_d3_partial`, `C24_d3_n_partial`, `C24_d2_axis1_partial`, `C24_d2_axis1_n_partial`, `C24_d3_axis2_partial`, `C24_d3_axis2_n_partial`, `C24_d3_axis1_partial`, `C24_d3_axis1_n_partial`, `C24_false_d1`, `C25_partial`, `C25_anchors`, `C25_refused`, `C25_exact`, `C25_claim`, `C26`, `C27_partial`, `C27_order`, `C28_partial`, `C29`, `C30_partial`, `C30_exact`, `C33`, `C33_once`, `C33_d0`, `C35_picks`, `C35_partial`, `C35_reject`, `C35_skip`, `C35_get`, `C35_false`, `C35_negative_skip`, `C35_negative_begin`, `C35_negative_max`, `C35_exact`, `C35_exact_real`, `C36_order`, `C36_partial`, `C36_success_partial`, `C36_release_partial`, `C36_false_stride`, `C36_false_product`, `C36_whole`, `C36_over`, `C36_exact`, `C36_held`, `C36_short`, `C37_logged`, `C37`, `C37_memory`, `C37_value`, `C38`, `C38_frame`, `C38_log`, `C39_read`, `C39`, `C40`, `C40_when`, `C40_size`, `C40_component`, `C41_partial`, `C41_empty`, `C41_open`, `C41_false`, `C41_exact`, `C41_exact_open`, `C42`, `C42_head`, `C42_nul`, `C43`, `C43_zone`, `C43_single`, `C43_get`, `C44_file`, `C44_zone`, `C44_partial`, `C44_new`, `C44_false`, `C44_false_order`, `C45_echo`, `C45_json`, `C45_xml`, `C45_files`, `C45_depth`, `C46_exact`, `C46_exact_zone`, `C46_exact_else`, `C46_partial`, `C46_partial_zone`, `C46_false`, `C46_false_zone`, `C46_false_write`, `C47`, `C48_except`, `C48_no_escape`, `C48_pad`, `C48_time`, `C49_partial`, `C49_false_max`, `C49_false`, `C49_any`, `C50`, `C50_defined`, `C50_exact`, `C50_exact_else`, `C51`, `C52`, `C52_decl`, `C52_unique`, `C52_rounds`, `C52_rounds_attrs`, `C53_partial`, `C53_partial_file`, `C53_false`, `C53_exact`, `C53_exact_file`, `C53_tidy`, `C53_literal`, `C54_partial`, `C54_false`, `C54_again`, `C56`, `C56_missing`, `C56_get`, `C56_null`, `C56_noThrow`, `C56_needs`, `C56_appends`, `C56_exact`, `C56_held`, `C56_undefined`, `C56_one`, `C56_strange`, `C57`, `C57_attr`, `C55_log`, `C55`, `C58`, `C59_unique`, `C59_partial`, `C59_partial_zone`, `C59_exact`, `C59_exact_zone`, `C59_partial_written`, `C59_false`, `C60`, `C60_untyped`, `C61`, `C61_partial`, `C61_exact`, `C61_iff`, `C61_builtin`, `C61_false`, `C63_unique`, `C63_print`, `C63`, `C63_json`, `C64_nearest`, `C64_back`, `C64`, `C64_exact_false`, `C65`, `C65_uninit`, `C66`, `C67`, `C67_prints_unassigned`, `C68_conserved`, `C68_bounded`, `C68`, `C69`, `C69_half`, `C70`, `C71`, `C72`, `C73_bounded`, `C73`, `C75`, `C75_uninit`, `C75_sum`, `C75_max`, `C76`, `C77`, `C74`, `C78`, `C78_uninit`, `C79_D1`, `C79_D2`, `C79_D3`, `C80`, `C81`, `C81_compact`, `C81_indented`, `C81_save`, `C81_closed`, `C82_exact`, `C82_again`, `C82_once`, `C82_partial`, `C82_false_return`, `C82_false_blank`, `C82_false_empty`, `C82_false_top`, `C82_both`, `C82_exact_indented`, `C82_exact_wide`, `C82_wide`, `C83_end`, `C83_first`, `C83_cycle`, `C84_partial`, `C84_null`, `C84_false`, `C84_cycle`, `C86_node`, `C86_children`, `C86_document`, `C87_runs`, `C87_call`, `C87_no_leak`, `C88`, `C88_call`, `C88_limit`, `C88_unlinked`, `C89_partial`, `C89_counter_false`, `C90`, `C90_test`, `C91`, `C91_nan`, `C91_attribute`, `C91_text`, `C91_saved_attribute`, `C91_saved_text_partial`, `C91_saved_text_false`, `C91_words_false`, `C91_float_false`, `C91_float_partial`, `C91_query`, `C91_query_none`, `C91_query_text`, `C91_query_text_none`, `C91_bool_number`, `C91_words`, `C92_runs`, `C92_call`, `C92_parse`, `C92_find`, `C92_self`, `C93_deep`, `C93_apart`, `C93_copy`, `C93_equal`, `C93_equal_self`, `C93_equal_false`, `C94`, `C94_defined`, `C94_whole`, `C94_points`, `C95_D1C`, `C95_D1H`, `C95_D2C_big`, `C95_unchecked`, `C95_D2C`, `C96`, `C96_silent`, `C97`, `C97_order`, `C97_format`, `C97_limits`, `C98_partial`, `C98_wrong`, `C98_dropped`, `C98_false`, `C99_safe`, `C99_error`, `C99_tree`, `C99_places`, `C99_decode`, `C100_tree`, `C100_error`, `C100_order`, `C100_bound`, `C101`, `C101_load`, `C101_header`, `C101_attr_false`, `C101_close_false`, `C102`, `C102_doc`, `C102_clear`, `C102_clear_false`, `C102_close`, `C103`, `C104`, `C104_complete`, `C104_corner`, `C104_faces`, `C104_x1`, `C104_x2`, `C104_x4`, `C104_x3`, `C104_x5`, `C104_x6`, `C105`, `C105_big`, `C105_unchecked`, `C106`, `C106_plain`, `C107`, `C107_empty`, `C107_own`, `C108`, `C108_cells`, `C109`, `C109_order`, `C109_default`, `C109_quit`, `C109_comment`, `C110`, `C110_same`, `C110_default`, `C110_save`, `C110_lost`, `C110_false`, `C111`, `C111_tells`, `C111_name`, `C111_silent_false`, `C111_clear`, `C112_float`, `C112`, `C112_float_false`, `C113`, `C113_save`, `C114_partial`, `C114_small`, `C114_deep`, `C114_false`, `C114_print`, `C115_size`, `C115_range`, `C115_unchecked`, `C115_undefined`, `C115_d0`, `C116`, `C116_const`, `C116_half`, `C116_half_const`, `C117_node`, `C117_document`, `C117_clone`, `C117_copy`, `C117_false`, `C118_nearest`, `C118_tie`, `C118_back`, `C118_exact`, `C118_false`, `C118_special`, `C118_query`, `C118_saved`, `C118_query_attribute`, `C118_query_attribute_none`, `C118_query_text`, `C118_query_text_none`, `C119_nearest`, `C119_tie`, `C119_int`, `C119_int64`, `C119_unsigned`, `C119_bool`, `C120`, `C120_whole`, `C120_nul`, `C120_null`, `C120_undefined`, `C120_printed`
* **Quot.sound, propext** (40 theorems): `C06_safe`, `C07_exact_fits`, `C10_false`, `C17_false_d1`, `C17_false_d2`, `C17_false_d3`, `C20_d3_axis2_reject`, `C21_false_d1`, `C21_d1_partial`, `C21_false_d2`, `C21_false_d3`, `C21_exact_d1`, `C21_exact_d2`, `C21_exact_d3`, `C32_d1`, `C32_d2`, `C32_d3`, `C33_order`, `C34`, `C43_double`, `C44_bits`, `C48_time_cases`, `C62_get`, `C62_set`, `C62_iff`, `C85_walk`, `C85_child`, `C85_sibling`, `C85_loose`, `C88_memory`, `C88_overflow`, `C89_apart`, `C92_all`, `C92_dangling`, `C94_faults`, `C96_iff`, `C103_words`, `C107_row`, `C107_comp`, `C109_follow`
* **propext** (39 theorems): `C03`, `C06_false`, `C06_false_d3`, `C07_false`, `C09_d1`, `C09_false`, `C09_false_d3`, `C11_false`, `C11_false_alias`, `C20_d2_axis1_reject`, `C20_d3_axis1_reject`, `C25_false`, `C27_false`, `C27_false_alias`, `C28_false`, `C28_unallocated`, `C30_false`, `C30_false_half`, `C31`, `C32_d0`, `C33_unallocated`, `C37_nan`, `C37_empty`, `C47_count`, `C62_place`, `C62_place2`, `C65_dependent`, `C70_loops`, `C83_document`, `C86_dangling`, `C89_twice_false`, `C89_leak_false`, `C89_memory`, `C92_no_leak`, `C92_pointers`, `C93_document`, `C96_watched`, `C101_legal`, `C116_unchecked`
* **no axioms** (3 theorems): `C43_new`, `C92_setAttr`, `C93_copy_self`

# Formal model of meteosatlib in Lean 4

## Layout

| path | content |
|---|---|
| `lean/Verif/Model/*.lean` | the model: total functions following the C++ function by function, each citing `/repo` file and lines |
| `lean/Verif/Spec/*.lean`  | small specifications that do not mention the model |
| `lean/Verif/Lemmas/*.lean` | helper lemmas |
| `lean/Verif/Props/*.lean` | the property theorems (`Cnn_...`) with non-vacuity examples |
| `seeded/LOG.jsonl` | seeded-bug experiments |
| `MANIFEST.json` | property -> theorems |

C++ outcomes are modelled by `Outcome α`: `ok`, `throws` (a C++ exception), `ub` (undefined
behaviour: out-of-bounds access, null dereference, division by zero), `terminate` (bare `throw;`
without an active exception), `diverges` (no step can finish the loop).  UB is a distinct outcome,
so a theorem that says `= ok ...` also says that no UB happened.

Bytes are `UInt8`, C++ `std::string` and `unsigned char*` buffers are `List UInt8`.  Unsigned machine
integers are `Nat` with explicit `% 2^w` where wrap-around is observable.  Floating point
computations are idealised over `Rat` (exact rationals) and marked so where they occur.

## Plan per property

Each line: what is modelled / how it is proved.

- C01 `get_*` decoders as Horner folds over bytes / round trip both ways, per width, by arithmetic on digits.
- C02 `MSG_time_cds_short::read_from` / closed formula, monotonicity by `omega`.
- C03 record loop of `MSG_header::read_from` over arbitrary bytes with an explicit outcome / the negations (divergence, UB, terminate) with concrete witnesses; partial positive theorem under the per-record length condition.
- C04 same loop / induction on the list of encoded records.
- C05 generic layout language (fields, nesting, replication) interpreted on bytes / generic tiling theorem, instantiated for each structure; negations for the structures with overlapping offsets.
- C06 `parse`, `toString` on byte strings / list lemmas on splitting at separators.
- C07 glob patterns as literal/`?` lists, matching as a relation / case analysis on the fixed-position characters.
- C08 cache as a state machine / refinement invariant by induction on the access history.
- C09, C10 `scan` + `line_read` / arithmetic bijection; subset induction.
- C11 `line_start` / case analysis, `omega`.
- C12 `IReadBlock` / list lemma on zero / data / zero composition.
- C13, C14, C16 lookup tables / full-table case analysis (all integers or all strings, not samples).
- C15 `jday` / comparison with an independent day-count specification for all years.
- C17, C18 over exact rationals / field arithmetic.
- C19, C20 window validation and geotransform adjustment / `omega`, field arithmetic.
- C21-C26 string functions on byte lists / induction.
- C27-C29 OpenMTP-IDS writer and reader / round trip by induction on records and lines, prefix rejection, range = drop/take of the concatenation.
- C30 10-bit unpacking on bytes / arithmetic per group of 5 bytes, induction on groups.
- C31 packet header and section lengths / arithmetic.
- C32, C33 image buffer as list, line writes / refinement by induction on the write history; negation for half lines.
- C34 `r4_from_buff` / normalisation loop invariant on value = fraction * 2^e.
- C35 format code table / full-table case analysis.
- C36 dictionary slots / refinement to a finite map by induction on histories.
- C37 lowercase lookup, section counting / list lemmas.
- C38 file system as name -> content map with system-call steps / every prefix of the trace.
- C39 transfer loops against an arbitrary schedule / induction.
- C40 directory trees / structural induction; negation for file systems that report no entry type.
- C41 normalised timespecs / `omega`.
- C42 child state machine / induction on event list; negation for the timed wait.
- C43 environment list / induction on histories.
- C44 writer/reader formulas over rationals and integers / arithmetic.
- C45 date fields / arithmetic.
- C46 type tables / case analysis plus casts.
- C47 stretch over integers or rationals / order arithmetic.
- C48 clamp logic, with trigonometric functions as arbitrary parameters / order arithmetic.
- C49 source accumulation as a fold / permutation invariance.
- C50, C51 predicates and section lengths / case analysis, `omega`; negations where code is wrong.
- C52 ownership state machines / invariant over operation histories.
- C53 per-image state of the converter as a fold over the images / induction; negation for images of different sizes.
- C54 sample scaling over rationals / order arithmetic.
- C55 size limits / integer arithmetic; negation for elongated images.
- C56 URL decoding loop on any text / induction; negation for a lone percent sign.
- C57 prefix, suffix and case helpers / list lemmas, all 256 bytes.
- C58 base64 decoding on any text / induction; negation for the opening brace.
- C59 native line loop with an explicit heap of line blocks / induction on the lines; negations for the last line.
- C60 layouts of packet and line headers / agreement with a specification layout.
- C61 text header fields at the offsets of the code / induction on the fields, against texts laid out one after the other.
- C62 the line loop of iniparser_new with fgets and the sscanf patterns / induction on a document given as a list of items, every line shown to have its intended effect, then C36.
- C63 composition of the C38/C39 models of write_file, write_file_atomically and read_file over one file system state / the contracts of both proved in C39 chained.
- C64 OpenMTP files are lists of bytes; induction over the lines. C65 integer arithmetic on the header fields. C66 the numerals are split into characters.
- C45, C67 `Model/Datetime.lean` on `Model/Text.lean` (`printf`/`sscanf` of integers): a GRIB message is its date fields, what the GRIB library does with a key is trusted; `mktime` in UTC is the formula of POSIX. Round trips are proved through a lemma that a zero-filled number is scanned back; the reference time by a closed form of the number of days since 2000.
- C46 `Model/NetcdfBand.lean`: pixel types and missing values through a NetCDF variable; the NetCDF library stores and returns values of a type unchanged (trusted), floating point values are rationals or NaN.
- C47 `Model/Stretch.lean`: the stretch to 8 bits over rational pixels and NaN; conversions outside the range are undefined behaviour.
- C48, C68, C69 `Model/Solar.lean`: the formulas over the real numbers (Mathlib), against vectors in space (`Spec/Solar.lean`): rounding of floating point numbers is not modelled.
- C49, C70 `Model/Sources.lean`: state of the dataset that collects sources, kept also after exceptions; projections and geotransforms are opaque values. Order independence by characterising the final state with membership only. `RasterIO` refuses windows outside the raster (trusted).
- C44, C71 `Model/PixelSize.lean` and `Model/Georef.lean`: over the real numbers; the libraries return the values of attributes and keys (trusted; GRIB keys hold the values of images inside the full disk). Numeric bounds of arcsin, tan and π separate computed sizes from tabulated ones.
- C72 `Model/Redirect.lean`: a table of descriptors (a list), with `pipe`, `open`, `dup2` and `close` as POSIX says (trusted); an invariant through the three streams gives the table of the child, another that of the parent. System calls that fail for want of resources are modelled for `fork` only.
- C73 `Model/HriFile.lean`: `readfrom` over a file as a list of bytes, with the static line buffer and the stream state; a file is specified as frames around subframes around lines (`Spec/HriFile.lean`); a chain of lines that can be read (`Lemmas/HriLoop.lean`) carries the loop over all formats by induction on the groups of lines.
- C74 Model of the 48 bytes of identification with mktime/gmtime over integers; specification by the calendar (days of a year); date proved right for every day of every year by the closed form of day counts, with the time zone as a parameter.
- C75 Model of the key slots as a list of 120; specification over the bytes of the table by index; proved by induction on the slots.
- C76 Model of the members as a table (name, reader, offset); specification as a layout of consecutive fields from which offsets are computed; the two tables compared in the kernel and lifted to all inputs by induction.
- C77 Model of the calibration tables over the reals, with the coefficients from the interpretation data and the unset variable as a parameter; specification by the radiance formula of the handbook, over the bytes of the file; proved by exp/log and monotonicity, GMS tables compared in the kernel.
- C78 Model of a GRIB message as keys and points with the packing as a parameter; the writer is the sequence of key settings of CreateGRIB, the reader GRIBDataset::init and IReadBlock; composition proved point by point.
- C79 Model of the option parsing (strtoul included), of the band list kept by the converter from image to image and of the windows; induction over the images of the command line.
- C80 Model of the name built from metadata strings; injectivity by cancelling prefixes of known length.
- C81 Model of CalibratedDataset and its bands over an arbitrary dataset (Model/Calibrated.lean); proved pixel by pixel, with the failing cases as negations.
- C82 Model of XRITDataset::init and XRITRasterBand over the reals (Model/XritDataset.lean); Planck's law in Spec/Seviri.lean; the temperature is proved to be the inverse of the law, and monotone; the date by the calendar.
- C83 Model of XRITOpen and add_extras with the datasets in memory as a list (Model/XritOpen.lean): exceptions run the destructors of what is owned; the invariant is that memory afterwards is memory before and what the product owns.
- C84 Composition of C82 (text of the date), the model of sscanf and C15.
- C85, C86 Model/NetcdfFile.lean: both NetCDF drivers, writing and opening, on top of the models of bands (C46), dates (C67) and georeference (C44). The library is trusted to give back what it is given and to refuse names that are used. Round trip by induction over the bands.
- C87 reading whole xRIT files: files are `encodeHeader rs ++ data ++ rest`; per type, the object left by reading is computed from `readHeader_encode` and the layouts of C05.
- C88 printing: the printed samples, text or keys are part of the model; theorems compose C87 with it.
- C89 lines from bytes: `scan` with one header object is shown equal to reading each header alone, then C09/C10 apply.
- C90 Thorn SDS channels: `StoredDb` says that files hold the documents and samples; an induction over the use of the object keeps the documents, and the loops over channels and counts are computed from C62.
- C91 Thorn SDS queries: every getter is reduced to the entry of the document by the reading of INI files (C62) and the dictionary (C36).
- C92 exports of Thorn SDS images: the run of the tool is computed from C90 and C91; the NetCDF and image libraries are trusted to write what they are given.
- C93 OpenMTP-IDS tools: every accepted file is consistent, by a postcondition of each reader, so the round trip of C27 applies; the loops of the tools are computed by induction over records and lines.
- C94 Model/XritTools.lean: the common part of the two programs (glob, reading of all files with C87, segsindexes, memcpy of every segment) and what each writes; Spec/XritTools.lean has the product on disk by sample, the window and its text. Rows of the picture are compared with C89 (lines of the library), the calibration with C82.
- C95 Model/HritTexts.lean: the text tables as functions on numbers; Spec/HritTexts.lean says what it is to tell numbers apart. Tables are checked whole by the kernel and lifted to all numbers.
- C96 Model/Radiance.lean over the reals; the triangle is the specification, proved with the law of sines in coordinates.
- C97 Model/XritDump.lean on top of the segment cache and line reading of C08 and C09; Spec/XritDump.lean has the sample of the product in a place and the eight shades.
- C98 Model/OpenMtpTools.lean on top of the OpenMTP reader of C64 to C66; Spec/OpenMtpTools.lean has header texts, dates, calibration and the law of radiation. Proved by inversion of a run of the program.
- C99 Model/HriTools.lean on top of the HRI reader of C73 to C77; Spec/HriTools.lean has complete files, names and steps. Proved by inversion of a run of the program.
- C100 Model/NativeTools.lean on top of C30, C31, C59 to C61; Spec/NativeTools.lean has entries of the text header and complete files. The scanners are inverted on entries, then the reader composed from the earlier theorems.
- C101 Model/OpenMtpHeader.lean: the accessors as tables (type, offset, step, length); Spec/OpenMtpHeader.lean: the header as a record of members one after the other, and which accessor is about which member. A general lemma finds the bytes of a member in an encoded record; the tables are compared by the kernel; the static arrays are a state with any history of calls.
- C102 Model/TimeTexts.lean: texts by strftime of gmtime and sprintf, string insert at 24 as a checked operation, sscanf as a list scanner on memory up to the first zero. Spec/TimeTexts.lean: the date of a day by the calendar of Spec/Calendar.lean, the text by decimal digits. The order is lexicographic order of bytes; proved through the order of dates and of fixed width digits.
- C103 Model/MsatCommandLine.lean: GNU getopt_long as a function from words to events (option with argument, operand, error), sscanf/strtod on exact rationals, the loop and the end of parse_cmdline, the first use of window and size. Spec/MsatCommandLine.lean: settings, the ways to write them, what they mean (the last one said). Proof by induction over the words of the command line.
- C104 Spec/Files.lean: a file system with directories (with . and ..), links and other files; the relation Walk says where a path leads and how many links were followed. Model/Files.lean: path resolution with the limit of 40 links, the wrappers of sys.cc. Proof: the function and the relation agree (induction over links and names), then each wrapper by its error codes; directories are association lists.
- C105 Model/IniDump.lean: the text written by iniparser_dump_ini and iniparser_dump. Proof: the text is the rendering of a document of C62 (induction over sections and slots), its entries have the same value at every key as the history (a set of consistent settings), and C62 reads it.
- C106 Model/Computed.lean: positions of the pixels of a block, the blocks of the computed bands, GDAL reading a pixel of a block, GeoReferencer, recode; the transformation of the library is a parameter. Proof: position i + j*w of a window line by line (induction over lines), division with remainder, and C17, C18, C48, C68, C69, C84.
- C107 Model/Scoped.lean: programs as trees of scopes with the objects of sys.cc, setrlimit(2), open files and their times, mkstemp/remove on the file system of C104, answers of fcntl(2). Proof: induction over programs with the invariant that hard limits do not change and the numbers of objects stay open; for temporary files, ways in the file system survive a new entry (induction over Walk).
- C108: Model/RecordTexts.lean has a small language of what an `operator<<` writes (literals, values with a form, indices, bars, optional parts, loops over members) and its meaning; Model/RecordTextsItems.lean has one text per class, written from the code. Spec/RecordTexts.lean says which values a record has (from the documented layouts of C05) and which values a text shows. Completeness is proved class by class in the kernel and composed over arrays and members; determination is an induction over a text in which every value is followed by something its text cannot contain.
- C109: Model/Terminal.lean has the bytes written by each call and by nested scopes; Spec/Terminal.lean is a small emulator of select graphic rendition. Proofs are by induction over the tree of scopes and evaluation of the codes of each colour.
- C110: Model/Progress.lean has the singleton with its stack of tasks and the handler that prints; Spec/Progress.lean has the lines a tree of tasks must print. Proof by induction over the tree, for any state at the start.
- C111: Model/IniHeap.lean is the dictionary of iniparser.c with pointers into a heap of blocks that may be allocated, read and released once; Lemmas/IniHeap.lean proves each operation against ownership of disjoint blocks and shows that the contents are those of Model/Ini.lean; the theorems are inductions over the operations.
- C112: Model/GribKeys.lean has the calls of an export in order, as data, and how an arbitrary library that may refuse any of them answers; Spec/GribKeys.lean lists what a message must say by code table and what is expected of a library (independent keys). Lemmas/GribKeys.lean proves what a sequence of calls leaves by induction over it.
- C113: Model/GribHandle.lean has the class Grib as objects that own a handle, a file and a trace, histories of operations on them, and GRIBOpen, GetGeoTransform and IReadBlock over an arbitrary library that answers each look up with a value, not found or an error. Spec/GribHandle.lean says what an image must say of a message and what everything released once means. An invariant counts each resource in exactly one place, by induction over the history; the opening is characterised by an equivalence.
- C114: Model/MsatView.lean has printDataset, printRasterBand and dumpMetadata as lists of lines over an arbitrary image. Spec/MsatView.lean says which images are the same. The text is cut back into lines, metadata and bands by the first characters of lines, and the parts of each line by characters that the parts cannot have, by induction on lines, domains and bands.
- C115: Model/Boxes.lean has the boxes of points.h with long and int. Spec/Boxes.lean has the smallest rectangle. By order theory of min and max, and omega.
- C116: Model/NetcdfAny.lean opens an arbitrary file: attributes are functions from names, variables a list. Spec/NetcdfAny.lean says what is accepted and what an image says of its file (an inductive relation for bands). Equivalence of opening and the specification by induction on variables.
- C117: Model/XritCommandLine.lean has the tables of options and the loops of both programs over the model of getopt_long; Spec/XritCommandLine.lean has command lines as inductive relations between settings and words. By induction on the command line and on the settings; sscanf of the window through Model/Text.lean.
- C118: Model/Locks.lean has the calls over a table of locks after fcntl(2) and the steps of threads that call, wait, are signalled and close; Spec/Locks.lean says which bytes a request covers and who holds them. By induction on the schedule with the invariant that nobody can write what another holds.
- C119: Model/MsatRun.lean has Msat::main over an arbitrary GDAL and Magick++ and an arbitrary choice of bands and windows (C79, C103), with the pictures of Model/Stretch.lean; Spec/MsatRun.lean has the images chosen as an inductive relation and what is seen of each. By induction on the files and bands; the greys by C47.
- C120: Model/Signals.lean has a kernel with processes that have numbers and serials, the object and kill(2), the text of a status, the loop of wait(int) with the handler of SIGCHLD in every turn, and Popen::main over an arbitrary execvp. By an invariant over all histories (Fine in Props/C120.lean), arithmetic of statuses, and induction on the turns.
- C121: model of the registration functions on a list of drivers with arbitrary functions that open files; invariant over all sequences of calls (names differ, the list only grows); the search as a list recursion, characterised by the first driver that opens the file; NetCDF files of any content from C116.
- C122: composition of the models of xRIT files (C89), xRIT images (C82) and NetCDF files (C85): Model/XritToNetcdf.lean reads all the blocks with one cache, makes the source of the export and creates the file. By induction on the lines with the blocks of C89_blocks for any history, the date by its digits, pixel sizes by the tolerance of the scale factors, temperatures by monotony of the law of Planck.
- C123: Model/XritFields.lean takes the members of the prologue that are used out of the reads of Layout.prologueData, and the header out of Hrit.scanHeaders; from C05 and C04 by structural lemmas on layouts and induction on the list of segments, then composed with C122.
- C124: composition of the models of xRIT files (C89), xRIT images (C82), GRIB messages (C78), the georeference (C44) and dates (C45): Model/XritToGrib.lean; the lines are those of C122, the pixels those that open_created of C78 gives, and the grid is generalised to pixel sizes near the standard ones.
- C125: Model/NetcdfToGrib.lean makes the source of the GRIB export of an opened NetCDF file; by C122 it is equal to the source that the xRIT image gives (equality of all pixels by their lines), and the grids have the same geotransform by C124.
- C126: Model/XritFieldsGrib.lean reads the members of the prologue and the header of the last segment as C123 does and goes on as C124; composition of the two.
- C127: both lists give the same lines by lines_ok of C122 (each pixel depends on the set of segments only) and the same header of the last segment by C123; the conversions are then equal by rewriting.
- C128: two instances of the general forms of C122 and C124, whose pixels depend on a segment only through its membership in the list of those found.
- C129: what the driver of GRIB gives (`GribToNetcdf.source`) is given to the model of the driver of NetCDF; C85 gives the round trip, and C124 what is in the GRIB file when it was made of xRIT files.

Not expressible here: numerical accuracy of IEEE rounding in `facts.cpp` (sun and satellite
angles), third-party library behaviour (GDAL, NetCDF, GRIB-API, xRIT decompression), real file
system durability (power loss).


## Code modelled

Lines of /repo cited by the definitions of `lean/Verif/Model` (generated from the comments).  A line
that is not in a range below is not modelled.  Simplifications are stated in the comment at the head
of each model file and in the comment of each definition.

- `gdal/grib/grib.cpp` (895 lines) in `Drivers`, `Georef`, `GribFile`, `GribHandle`, `GribKeys`, `GribToNetcdf`, `NetcdfToGrib`, `XritToGrib`: lines 16-20, 33-78, 90-155, 170-181, 200-230, 319-354, 357-388, 394-625, 637-796, 803-826, 829-832, 837-873, 877-893
- `gdal/grib/utils.h` (452 lines) in `Datetime`, `GribFile`, `GribHandle`, `GribKeys`: lines 30-204, 228-253, 264-293, 302-345, 352-380, 383-412
- `gdal/msat2gdal.cpp` (46 lines) in `Drivers`: lines 34-46
- `gdal/msatgdalplugin.cpp` (39 lines) in `Drivers`: lines 32-38
- `gdal/netcdf/netcdf.cpp` (548 lines) in `Datetime`, `Drivers`, `Georef`, `GribToNetcdf`, `NetcdfAny`, `NetcdfBand`, `NetcdfFile`, `NetcdfToGrib`: lines 47-76, 84-114, 117-523, 530-546
- `gdal/netcdf/netcdf24.cpp` (583 lines) in `Drivers`, `Georef`, `NetcdfAny`, `NetcdfFile`: lines 76-558, 565-581
- `gdal/netcdf/utils.cpp` (289 lines) in `Datetime`, `GribToNetcdf`, `NetcdfAny`, `NetcdfBand`, `NetcdfFile`, `NetcdfToGrib`, `XritToNetcdf`: lines 28-58, 62-286
- `gdal/netcdf/utils.h` (85 lines) in `NetcdfAny`: lines 44-50
- `gdal/reflectance/base.cpp` (84 lines) in `Sources`, `XritOpen`: lines 15-60, 73-83
- `gdal/reflectance/base.h` (47 lines) in `Sources`: lines 12-40
- `gdal/reflectance/cos_sol_za.cpp` (94 lines) in `Computed`, `Solar`, `XritOpen`: lines 28-46, 51-81, 87-92
- `gdal/reflectance/jday.cpp` (63 lines) in `Computed`, `XritOpen`: lines 23-38, 47-54, 57-62
- `gdal/reflectance/pixeltolatlon.cpp` (69 lines) in `Computed`: lines 9-24, 33-66
- `gdal/reflectance/pixeltolatlon.h` (25 lines) in `Computed`: declarations, as cited in the definitions
- `gdal/reflectance/reflectance.cpp` (337 lines) in `Computed`, `Solar`, `Sources`, `XritOpen`: lines 29-46, 50-96, 113-121, 130-168, 209-315, 318-334
- `gdal/reflectance/reflectance.h` (118 lines) in `Sources`, `XritOpen`: lines 12-52
- `gdal/reflectance/sat_za.cpp` (80 lines) in `Computed`, `Solar`, `XritOpen`: lines 23-33, 40-70, 73-78
- `gdal/utils.cpp` (60 lines) in `XritOpen`: lines 16-57
- `gdal/xrit/dataset.cpp` (114 lines) in `XritDataset`, `XritFields`, `XritFieldsGrib`, `XritToGrib`, `XritToNetcdf`: lines 30-105
- `gdal/xrit/rasterband.cpp` (123 lines) in `DataAccess`, `XritDataset`, `XritFields`, `XritToGrib`, `XritToNetcdf`: lines 22-102
- `gdal/xrit/xrit.cpp` (102 lines) in `Drivers`, `XritOpen`: lines 18-76, 85-100
- `msat/Progress.cpp` (90 lines) in `Progress`: lines 9-14, 59-87
- `msat/Progress.h` (65 lines) in `Progress`: lines 12-14
- `msat/facts.cpp` (660 lines) in `Facts`, `GribFile`, `GribHandle`, `NetcdfAny`, `NetcdfFile`, `PixelSize`, `Solar`: lines 11-30, 38-115, 145-261, 264-333, 336-346, 349-601, 612-643
- `msat/facts.h` (160 lines) in `Georef`, `GribKeys`, `PixelSize`, `Solar`: lines 11-16, 20, 23, 26-36
- `msat/gdal/const.h` (33 lines) in `MsatRun`: lines 23-26
- `msat/gdal/dataset.cpp` (405 lines) in `Calibrated`, `Computed`, `Geo`, `NetcdfToGrib`, `XritToGrib`, `XritToNetcdf`: lines 74-143, 146-176, 192-261, 264-269, 300-322, 347-402
- `msat/gdal/dataset.h` (200 lines) in `Computed`: lines 69-78, 92-105
- `msat/gdal/gdaltranslate.cpp` (645 lines) in `Geo`, `MsatCommandLine`, `MsatTool`: lines 49-86, 98-553
- `msat/gdal/gdaltranslate.h` (100 lines) in `MsatTool`: declarations, as cited in the definitions
- `msat/gdal/points.h` (134 lines) in `Boxes`: lines 38-44, 47-50, 54-60, 63-77, 81-93, 99-111, 117-127
- `msat/hri/HRI.cpp` (585 lines) in `HriCal`, `HriFile`, `HriLabel`, `HriTools`: lines 40-383, 395-398, 425-557
- `msat/hri/HRI.h` (106 lines) in `HriFile`: lines 74-99
- `msat/hri/HRI_geolocation.h` (87 lines) in `HriLabel`: lines 32-37, 44-84
- `msat/hri/HRI_image.cpp` (546 lines) in `HriCal`, `HriImage`, `HriTools`: lines 35-46, 61-297, 304-327, 336-546
- `msat/hri/HRI_image.h` (100 lines) in `HriImage`, `HriTools`: lines 41-96
- `msat/hri/HRI_machine.cpp` (347 lines) in `HriMachine`: lines 32-44, 48-347
- `msat/hri/HRI_subframe_identification.cpp` (143 lines) in `HriIdent`, `HriTools`: lines 38-146
- `msat/hri/HRI_subframe_identification.h` (89 lines) in `HriIdent`: lines 38-66
- `msat/hri/HRI_subframe_interpretation.cpp` (173 lines) in `HriIdent`: lines 37-173
- `msat/hri/HRI_subframe_keyslot.cpp` (83 lines) in `HriIdent`: lines 37-83
- `msat/hri/HRI_subframe_keyslot.h` (83 lines) in `HriIdent`: lines 35-40
- `msat/hri/HRI_subframe_label.cpp` (215 lines) in `HriLabel`: lines 37-104, 130-164, 196-215
- `msat/hri/HRI_subframe_label.h` (175 lines) in `HriLabel`: lines 60-76
- `msat/hrit/MSG_HRIT.cpp` (78 lines) in `HritFile`: lines 43-48
- `msat/hrit/MSG_channel.cpp` (209 lines) in `HritTexts`: lines 32-209
- `msat/hrit/MSG_channel.h` (95 lines) in `HritTexts`: lines 37-52
- `msat/hrit/MSG_compression.cpp` (51 lines) in `HritTexts`: lines 32-51
- `msat/hrit/MSG_data.cpp` (339 lines) in `HritData`, `HritFile`, `RecordTextsItems`, `XritFields`, `XritFieldsGrib`: lines 34-65, 83-339
- `msat/hrit/MSG_data.h` (108 lines) in `HritFile`: lines 82-107
- `msat/hrit/MSG_data_CelestialEvents.cpp` (285 lines) in `Prologue`, `RecordTexts`, `RecordTextsItems`: lines 35-78, 89-285
- `msat/hrit/MSG_data_GeometricProc.cpp` (165 lines) in `Prologue`, `RecordTextsItems`: lines 35-108, 119-165
- `msat/hrit/MSG_data_GeometricQuality.cpp` (204 lines) in `Prologue`, `RecordTextsItems`: lines 34-153, 165-204
- `msat/hrit/MSG_data_IMPFConfiguration.cpp` (536 lines) in `Prologue`, `RecordTexts`, `RecordTextsItems`: lines 35-504, 516-536
- `msat/hrit/MSG_data_ImageAcquisition.cpp` (386 lines) in `Prologue`, `RecordTextsItems`: lines 35-248, 260-386
- `msat/hrit/MSG_data_ImageDescription.cpp` (246 lines) in `Prologue`, `RecordTextsItems`: lines 35-210, 222-246
- `msat/hrit/MSG_data_ImageProdStats.cpp` (229 lines) in `Prologue`, `RecordTextsItems`: lines 35-187, 198-229
- `msat/hrit/MSG_data_NavigExtrResult.cpp` (185 lines) in `Prologue`, `RecordTextsItems`: lines 34-149, 160-185
- `msat/hrit/MSG_data_RadiometricProc.cpp` (685 lines) in `Prologue`, `Radiance`, `RecordTextsItems`, `XritDataset`, `XritFields`, `XritTools`: lines 37-495, 506-687
- `msat/hrit/MSG_data_RadiometricQuality.cpp` (517 lines) in `Prologue`, `RecordTexts`, `RecordTextsItems`: lines 35-476, 488-508, 511-519
- `msat/hrit/MSG_data_SGS_header.cpp` (181 lines) in `HritFile`: lines 44-64, 102-115, 141-146, 162-168
- `msat/hrit/MSG_data_SGS_header.h` (112 lines) in `HritFile`: lines 48-70
- `msat/hrit/MSG_data_SatelliteStatus.cpp` (392 lines) in `Prologue`, `RecordTexts`, `RecordTextsItems`: lines 48-59, 71-392
- `msat/hrit/MSG_data_TimelinComple.cpp` (98 lines) in `Prologue`, `RecordTextsItems`: lines 34-68, 79-98
- `msat/hrit/MSG_data_format.cpp` (54 lines) in `HritTexts`: lines 32-54
- `msat/hrit/MSG_data_format.h` (44 lines) in `HritFile`: lines 35-40
- `msat/hrit/MSG_data_gts.cpp` (96 lines) in `HritFile`: lines 49-61, 79-85
- `msat/hrit/MSG_data_image.cpp` (85 lines) in `HritFile`: lines 43-85
- `msat/hrit/MSG_data_image.h` (89 lines) in `HritFile`: lines 57-75
- `msat/hrit/MSG_data_key.cpp` (95 lines) in `HritData`, `HritFile`: lines 49-81, 89-93
- `msat/hrit/MSG_data_text.cpp` (97 lines) in `HritFile`: lines 49-61, 88-97
- `msat/hrit/MSG_filetype.cpp` (68 lines) in `HritTexts`: lines 33-68
- `msat/hrit/MSG_header.cpp` (247 lines) in `HritHeader`: lines 33-46, 74-225
- `msat/hrit/MSG_header.h` (99 lines) in `HritHeader`: lines 84-96
- `msat/hrit/MSG_header_ancillary_text.cpp` (79 lines) in `HritHeader`: lines 52-71
- `msat/hrit/MSG_header_annotation.cpp` (76 lines) in `HritHeader`: lines 45-60
- `msat/hrit/MSG_header_annotation.h` (63 lines) in `HritHeader`: declarations, as cited in the definitions
- `msat/hrit/MSG_header_image_datafunc.cpp` (76 lines) in `HritHeader`: lines 45-66
- `msat/hrit/MSG_header_image_navig.cpp` (122 lines) in `HritHeader`, `XritFields`: lines 49-91
- `msat/hrit/MSG_header_image_navig.h` (70 lines) in `HritHeader`: declarations, as cited in the definitions
- `msat/hrit/MSG_header_image_struct.cpp` (67 lines) in `HritHeader`: lines 43-53
- `msat/hrit/MSG_header_image_struct.h` (60 lines) in `HritHeader`: lines 47-52
- `msat/hrit/MSG_header_key.cpp` (73 lines) in `HritHeader`: lines 42-62
- `msat/hrit/MSG_header_key.h` (56 lines) in `HritHeader`: lines 51-52
- `msat/hrit/MSG_header_segment_id.cpp` (75 lines) in `HritHeader`: lines 45-54
- `msat/hrit/MSG_header_segment_id.h` (61 lines) in `HritHeader`: lines 52-57
- `msat/hrit/MSG_header_segment_quality.cpp` (124 lines) in `HritHeader`: lines 54-66, 85-95
- `msat/hrit/MSG_header_segment_quality.h` (78 lines) in `HritHeader`: lines 43-49
- `msat/hrit/MSG_header_timestamp.cpp` (53 lines) in `HritHeader`: lines 41-44
- `msat/hrit/MSG_hrit_specdoc.h` (40 lines) in `HritTexts`: lines 33-34
- `msat/hrit/MSG_machine.cpp` (165 lines) in `Machine`: lines 35-47, 54-158
- `msat/hrit/MSG_quality.cpp` (113 lines) in `HritTexts`: lines 32-113
- `msat/hrit/MSG_spacecraft.cpp` (138 lines) in `HritTexts`: lines 32-138
- `msat/hrit/MSG_spacecraft.h` (74 lines) in `Facts`, `HritTexts`: lines 34-70
- `msat/hrit/MSG_time_cds.cpp` (387 lines) in `Layout`, `Time`, `TimeTexts`, `XritFields`: lines 54-69, 101-126, 152-160, 167-184, 208-214, 226-251, 277-282, 289-314, 326-329, 339-353, 360-381
- `msat/hrit/MSG_time_cds.h` (155 lines) in `Time`: lines 104-110
- `msat/iniparser.c` (989 lines) in `Ini`, `IniDump`, `IniFile`, `IniHeap`, `Thornsds`: lines 44, 58-72, 118-124, 143-159, 214-222, 242-258, 273-287, 300-317, 335-353, 381-433, 446-477, 493-510, 518-537, 558-573, 591-611, 645-683, 724-736, 753-760, 776-783, 819-834, 850-859, 878-882, 894-897, 915-966
- `msat/iniparser.h` (82 lines) in `Ini`, `IniHeap`: declarations, as cited in the definitions
- `msat/msg-native/MSG_native.cpp` (278 lines) in `Native`, `NativeTools`: lines 56-243
- `msat/msg-native/MSG_native_header.cpp` (158 lines) in `HritData`, `Native`: lines 26-140
- `msat/msg-native/MSG_native_header.h` (54 lines) in `Native`: lines 36, 44
- `msat/msg-native/MSG_native_line.cpp` (232 lines) in `Native`, `NativeTools`: lines 145-232
- `msat/msg-native/MSG_native_line.h` (108 lines) in `Native`: lines 73
- `msat/msg-native/MSG_native_packetheader.cpp` (104 lines) in `Native`: lines 28-56
- `msat/msg-native/MSG_native_packetheader.h` (68 lines) in `Native`: lines 61
- `msat/msg-native/MSG_native_trailer.cpp` (81 lines) in `HritData`, `Native`: lines 27-74
- `msat/msg-native/MSG_native_trailer.h` (44 lines) in `Native`: lines 35
- `msat/omtp-ids/ByteSex.cc` (297 lines) in `Machine`, `OmtpIds`: lines 45-60, 64-79, 108-120, 124-138, 166-180, 184-200, 230-243, 247-262
- `msat/omtp-ids/FileHeader.cc` (265 lines) in `OmtpIds`: lines 80-81, 86-186
- `msat/omtp-ids/LineHeader.cc` (134 lines) in `OmtpIds`, `OmtpIdsTools`: lines 46-57, 61-97
- `msat/omtp-ids/OpenMTP-IDS.cc` (227 lines) in `OmtpIds`, `OmtpIdsTools`: lines 52-93, 97-147, 168-179, 182-186, 189-227
- `msat/omtp-ids/Record.cc` (102 lines) in `OmtpIds`: lines 46-82
- `msat/omtp-ids/RecordHeader.cc` (120 lines) in `OmtpIds`, `OmtpIdsTools`: lines 45-52, 57-83
- `msat/omtp-ids/ScanLine.cc` (116 lines) in `OmtpIds`: lines 46-100
- `msat/openmtp/OpenMTP.cpp` (202 lines) in `OpenMTP`, `OpenMtpTools`: lines 41-76, 86-137, 156-179
- `msat/openmtp/OpenMTP_ascii_header.cpp` (52 lines) in `OpenMTP`: lines 42-52
- `msat/openmtp/OpenMTP_binary_header.cpp` (809 lines) in `OpenMTP`, `OpenMtpHeader`, `OpenMtpTools`: lines 43-809
- `msat/openmtp/OpenMTP_image.cpp` (108 lines) in `OpenMTP`, `OpenMtpTools`: lines 42-101
- `msat/openmtp/OpenMTP_image_line.cpp` (59 lines) in `OpenMTP`: lines 42-52
- `msat/openmtp/OpenMTP_machine.cpp` (150 lines) in `Machine`, `OpenMTP`, `OpenMtpHeader`: lines 48-150
- `msat/thornsds_db1/thornsds_db1.cpp` (497 lines) in `Thornsds`: lines 35-45, 49-497
- `msat/thornsds_db1/thornsds_db1.h` (119 lines) in `Thornsds`: lines 32-33, 36, 45-119
- `msat/utils/string.cc` (540 lines) in `Str`: lines 15-312, 322-536
- `msat/utils/string.h` (252 lines) in `Str`: lines 19-24, 27-32, 37-51, 56-70, 88-95, 98-105, 124-131, 134-143
- `msat/utils/subprocess.cc` (585 lines) in `Redirect`, `Signals`, `Subprocess`: lines 18-294, 310-336, 339-378, 381-403, 407-492, 500-592
- `msat/utils/subprocess.h` (191 lines) in `Redirect`, `Signals`, `Subprocess`: lines 11-29, 34-43
- `msat/utils/sys.cc` (1357 lines) in `Elapsed`, `Files`, `Locks`, `Owners`, `Rmtree`, `Scoped`, `Sys`: lines 37-146, 150-187, 190-198, 232-263, 272-277, 293-299, 329-354, 388-400, 416-455, 491-505, 547-550, 586-605, 620-630, 637-669, 695-710, 724-852, 860-875, 951-983, 994-998, 1045-1060, 1087-1092, 1114-1130, 1141-1178, 1185-1196, 1215-1234, 1247-1251, 1285-1301, 1337-1354
- `msat/utils/term.cc` (139 lines) in `Terminal`: lines 17-18, 26-30, 34-48, 52-86, 91-101, 113-134
- `msat/utils/term.h` (56 lines) in `Terminal`: declarations, as cited in the definitions
- `msat/xrit/dataaccess.cpp` (250 lines) in `DataAccess`, `HritFile`, `XritFields`: lines 45-247
- `msat/xrit/dataaccess.h` (154 lines) in `DataAccess`: lines 42-104
- `msat/xrit/fileaccess.cpp` (269 lines) in `FileAccess`, `XritTools`: lines 38-51, 54-68, 81-266
- `msat/xrit/fileaccess.h` (69 lines) in `FileAccess`: declarations, as cited in the definitions
- `tools/hri/HRI2NetCDF.cpp` (192 lines) in `HriTools`: lines 65-164, 171-190
- `tools/hrit/XRIT2Image.cpp` (288 lines) in `XritCommandLine`, `XritTools`: lines 51-258, 274-288
- `tools/hrit/XRIT2NetCDF.cpp` (487 lines) in `XritCommandLine`, `XritTools`: lines 57-58, 66-71, 75-258, 274-297, 319-485
- `tools/hrit/xritdump.cpp` (215 lines) in `XritDump`: lines 51-213
- `tools/image.cpp` (178 lines) in `MsatRun`, `Stretch`: lines 11-176
- `tools/image.h` (56 lines) in `Stretch`: lines 35-41
- `tools/msat.cpp` (787 lines) in `Calibrated`, `Geo`, `GribToNetcdf`, `MsatCommandLine`, `MsatRun`, `MsatTool`, `MsatView`, `NetcdfToGrib`, `XritFields`, `XritFieldsGrib`, `XritToGrib`, `XritToNetcdf`: lines 92-282, 288-364, 367-545, 548-788
- `tools/msg-native/native2Image.cpp` (94 lines) in `NativeTools`: lines 40-94
- `tools/msg-native/nativedump.cpp` (40 lines) in `NativeTools`: lines 27-40
- `tools/omtp-ids/OpenMTP-IDS_debug.cc` (68 lines) in `OmtpIdsTools`: lines 62-65
- `tools/omtp-ids/OpenMTP-IDS_sector.cc` (184 lines) in `OmtpIdsTools`: lines 48-143, 155-184
- `tools/omtp-ids/OpenMTP-IDS_to_pgm.cc` (201 lines) in `OmtpIdsTools`: lines 43-65, 70-143, 146-162, 171-201
- `tools/omtp-ids/OpenMTP-IDS_write.cc` (70 lines) in `OmtpIdsTools`: lines 46-70
- `tools/openmtp/OpenMTP_info.cc` (73 lines) in `OpenMtpTools`: lines 36-73
- `tools/openmtp/OpenMTP_to_NetCDF.cpp` (218 lines) in `OpenMtpTools`: lines 65-191, 197-217
- `tools/thornsds_db1/db1_to_image.cpp` (117 lines) in `Thornsds`, `ThornsdsTools`: lines 83-113
- `tools/thornsds_db1/db1_to_netcdf.cpp` (193 lines) in `Thornsds`, `ThornsdsTools`: lines 35-193

### Files not modelled

- declarations only, of members and functions modelled from their sources: `gdal/grib/grib.h`, `gdal/netcdf/netcdf.h`, `gdal/netcdf/netcdf24.h`, `gdal/reflectance/cos_sol_za.h`, `gdal/reflectance/jday.h`, `gdal/reflectance/sat_za.h`, `gdal/utils.h`, `gdal/xrit/dataset.h`, `gdal/xrit/rasterband.h`, `gdal/xrit/xrit.h`, `msat/gdal/clean_cpl_error.h`, `msat/gdal/clean_gdal_priv.h`, `msat/hri/HRI_machine.h`, `msat/hri/HRI_subframe_interpretation.h`, `msat/hrit/MSG_HRIT.h`, `msat/hrit/MSG_compression.h`, `msat/hrit/MSG_data_CelestialEvents.h`, `msat/hrit/MSG_data_GeometricProc.h`, `msat/hrit/MSG_data_GeometricQuality.h`, `msat/hrit/MSG_data_IMPFConfiguration.h`, `msat/hrit/MSG_data_ImageAcquisition.h`, `msat/hrit/MSG_data_ImageDescription.h`, `msat/hrit/MSG_data_ImageProdStats.h`, `msat/hrit/MSG_data_NavigExtrResult.h`, `msat/hrit/MSG_data_RadiometricProc.h`, `msat/hrit/MSG_data_RadiometricQuality.h`, `msat/hrit/MSG_data_SatelliteStatus.h`, `msat/hrit/MSG_data_TimelinComple.h`, `msat/hrit/MSG_data_gts.h`, `msat/hrit/MSG_data_image_mpef.h`, `msat/hrit/MSG_data_key.h`, `msat/hrit/MSG_data_text.h`, `msat/hrit/MSG_filetype.h`, `msat/hrit/MSG_header_ancillary_text.h`, `msat/hrit/MSG_header_image_datafunc.h`, `msat/hrit/MSG_header_timestamp.h`, `msat/hrit/MSG_machine.h`, `msat/hrit/MSG_projection.h`, `msat/hrit/MSG_quality.h`, `msat/msg-native/MSG_native.h`, `msat/omtp-ids/sysdep.h`, `msat/openmtp/OpenMTP.h`, `msat/openmtp/OpenMTP_ascii_header.h`, `msat/openmtp/OpenMTP_binary_header.h`, `msat/openmtp/OpenMTP_image.h`, `msat/openmtp/OpenMTP_image_line.h`, `msat/openmtp/OpenMTP_machine.h`, `msat/utils/sys.h`
- an owning pointer to an array, nowhere used by modelled code except to release it: `msat/auto_arr_ptr.cpp`, `msat/auto_arr_ptr.h`
- the test suite and its framework: `msat/utils/testrunner.cc`, `msat/utils/testrunner.h`, `msat/utils/tests-main.cc`, `msat/utils/tests.cc`, `msat/utils/tests.h`, `tests/gdal/test-georef-grib.cpp`, `tests/gdal/test-georef-netcdf.cpp`, `tests/gdal/test-georef-xrit.cpp`, `tests/gdal/test-georef-xrithrv.cpp`, `tests/gdal/test-importgrib.cpp`, `tests/gdal/test-importnetcdf.cpp`, `tests/gdal/test-importxrit-nonlinear.cpp`, `tests/gdal/test-importxrit-rss.cpp`, `tests/gdal/test-importxrit-rsshrv.cpp`, `tests/gdal/test-importxrit.cpp`, `tests/gdal/test-importxrithrv.cpp`, `tests/gdal/test-xrit-reflectance.cpp`, `tests/gdal/test-xrit-solar-za.cpp`, `tests/gdal/utils.cc`, `tests/gdal/utils.h`, `tests/msat/test-dataaccess.cpp`, `tests/msat/test-facts.cpp`, `tests/msat/test-fileaccess.cpp`, `tests/tests-main.cc`

## Discrepancies found

Where the code does not have the property, the negation is proved with a concrete witness, and the
remaining part is proved by a theorem named `_partial`.

- `C03_violated_nontermination`: A line quality record of announced length zero is read for ever.
- `C03_violated_null_dereference`: A line quality record without image structure dereferences a null pointer.
- `C03_violated_out_of_bounds`: A record announced beyond the end of the header is read out of bounds.
- `C03_violated_polar`: Polar projections always dereference a null pointer, whatever the name's parameters.
- `C03_violated_terminate`: An empty file kills the process instead of raising an exception.
- `C03_violated_unknown_record`: So does a record of unknown type.
- `C05_violated_CalibrationConstants`: `CalibrationConstants[j]` is read 8 bytes, instead of 4, after the previous one.
- `C05_violated_DCRValues`: The read of `DCRValues` copies 63 bytes from the start of the structure into an array of 24 bytes: reading the radiometric processing structure is undefined whatever the file contains.
- `C05_violated_ResamplingFunction`: All twelve `ResamplingFunction` members are read from the byte documented to hold the first.
- `C05_violated_key_message`: The number and the bytes of an encryption key are read one byte early: the key number is the low byte of the station number, the key starts with the key number and loses its last byte.
- `C05_violated_landmark_SpinRate`: The `SpinRate` of a landmark observation (100 revolutions per minute here) comes out as another number: it is read two bytes too far, over the bytes of the following member.
- `C06_violated_empty_component`: A segment name with an empty satellite or channel is not refused: the code reads outside of the string.
- `C06_violated_isValid`: `isValid` accepts names that `parse` refuses: colons in the directory are counted.
- `C07_violated_long_name`: A satellite name longer than its field is cut: the products of two satellites whose names have the same first twelve characters are not distinguished.
- `C12_violated_wide_line`: A line that does not fit in the block is a write outside of the buffer of the caller: the windows of the epilogue are trusted.
- `C19_violated_overflow`: An offset near the end of the `int` range makes the check itself overflow: undefined behaviour, not a rejection.
- `C21_violated_empty_separator`: With an empty separator, skipping empty parts never ends.
- `C21_violated_only_separators`: A string made only of separators has no non-empty part, but one empty part is returned.
- `C24_violated_control_characters`: Every other control character is lost.
- `C25_violated_leading_dots`: A path that leads above its start is undefined behaviour (`back()` of an empty vector).
- `C25_violated_trailing_slash`: With a slash at the end the last component is in neither of the two.
- `C29_violated_all_lines`: So the last line is always missing: asking for all the scan lines does not return every line.
- `C30_violated_odd_length`: Data of any other length, in particular any number of samples that is not a multiple of four, packed in as few bytes as possible, makes the loop read outside of the data.
- `C31_violated_text_header`: The entries of the text header are taken with the C string functions: a text header without any NUL byte (the documented format is lines of text) is read beyond its end.
- `C33_violated_second_half`: The second half of a line is stored two pixels too early: it overwrites the end of the first half, and the last two pixels of the line are not written, whatever the format and the content.
- `C34_violated_denormal`: A number that a denormalised IEEE number represents exactly is converted to zero: 0x20100000 is 2 to the power -132.
- `C34_violated_double_unnormalised`: A number whose leading 24 bits of fraction are zero is not converted to its value: the value of 0x4E00000000000001 is 1, the result is 2 to the power 56.
- `C34_violated_long`: Where a `long` has eight bytes, as on all current 64 bit systems, the four bytes of the number are read with an access of eight bytes: outside of the array.
- `C34_violated_zero_fraction`: A fraction of zero with an exponent is not converted to zero: 0x41000000 becomes 8.
- `C36_violated_hash_zero`: A lookup with a key whose hash is zero, for example the empty one, is undefined behaviour when the key is not there and a position is unused: after any history the next new entry of which would not make the dictionary grow.
- `C37_violated_long_keys`: Only the first 1024 characters of a key count: longer keys that differ later are one entry.
- `C37_violated_section_value`: The number and boolean accessors follow the null pointer of a section.
- `C40_violated_link`: `rmtree` of a link to a directory removes what is in that directory, and the link: `/a/b/l`.
- `C40_violated_no_type`: Where the file system does not tell the types of entries, links to directories are followed: the files in `/c` are removed by `rmtree("/a")`, because of the link `/a/b/l`.
- `C41_violated_overflow`: Instants more than 292 years apart make a signed number overflow (although the result would fit the unsigned number returned): undefined behaviour.
- `C42_violated_killed`: A child killed by a signal (9) is reported to have exited with code 0, like one that succeeded: only the raw return code tells the difference.
- `C42_violated_timed_wait`: Once the termination of a child with exit code 0 has been reported, the timed wait says that it has not terminated: the exit code is returned in place of `true`.
- `C43_violated_copy_after_set`: Copying the parent's environment does not replace the environment, as documented: entries are appended, so a variable set before is given twice.
- `C43_violated_without_copy`: Setting one variable without copying the parent's environment first leaves the child with that variable only: every other variable is lost.
- `C44_violated_hrv`: GRIB: the pixel size of an image at the high resolution is not the same when it is read back, and the image that is read back cannot be written to GRIB again: its pixel size is not expected.
- `C44_violated_satellite`: NetCDF-24: a file with an image of any satellite but Meteosat 8 and 9 is written, and cannot be opened.
- `C44_violated_scale`: NetCDF: the pixel size of an image at half the low resolution changes.
- `C45_violated_seconds`: GRIB: edition 1 has no seconds, and the failure to set them is not checked: they are lost without notice.
- `C46_violated_int32`: NetCDF: reading the pixels of any image of 32 bit integers writes twice the size of the block: `long` has 64 bits.
- `C46_violated_nodata`: NetCDF: the missing value of a band with unsigned pixels is converted to the signed type of the same size, which is undefined for the values in the upper half of the range (255 for bytes, 65535 for 16 bit counts...).
- `C46_violated_refused`: NetCDF: a band of complex numbers is refused, but the result is not checked: if the band has a channel the null pointer is used; if not, the export goes on, and the file lacks the band.
- `C47_violated_conversion`: A missing value that is not a value of the pixels, such as the -10000000000 that GDAL gives for bands without one, makes the export of integer images undefined, before looking at any pixel; so does a range given by the user that does not fit.
- `C47_violated_nan`: Stretching an image of floating point numbers whose missing value is NaN, which is the default for bands of unknown channels, is undefined: NaN is not equal to itself, and remains as minimum and maximum.
- `C47_violated_negative`: Stretching an image of floating point numbers that are all the same negative number, at most -1, is undefined: the number is converted to an unsigned byte.
- `C47_violated_uniform`: Stretching an image where all the values that are not missing are the same `c` gives, everywhere, the last eight bits of `c`: neither black nor white (and 1000 is darker than 255).
- `C49_violated_metadata`: Sources of reflectances: the metadata of the result are those of the first source, so that they depend on the order if the sources do not have the same.
- `C49_violated_no_projection`: Sources of reflectances: a second source without projection is not refused, the missing projection is dereferenced.
- `C49_violated_stale`: Sources of reflectances: if the first source is refused because it has no geotransform, its projection is kept; a second source with another projection is then accepted, and its pixels are placed with the wrong projection.
- `C50_violated_subwindow`: OpenMTP: `is_subwindow` is true of every product, also of full disks and of the B format: `!A || !B` is written where `!A && !B` is meant.
- `C51_violated_line_table`: `is_line_present` reads outside of the header for a line that is not in the table.
- `C51_violated_long_line`: OpenMTP: the array for a line has 5032 bytes, but the number of pixels is taken from the header without a check: lines of more than 5000 pixels are stored beyond the end of the array.
- `C51_violated_reuse`: OpenMTP: an object that has read an image keeps its memory when it reads a file with more pixels: they are stored beyond its end.
- `C51_violated_size`: OpenMTP: the size of the image is a product of two `int` taken from the header, which may overflow.
- `C52_violated_assign_to_empty`: Assigning to an object that has been moved from (or unmapped) does not work: an exception is thrown and nothing is assigned, whatever is assigned to it.
- `C52_violated_close_error`: When closing reports an error the object keeps the descriptor, which is closed already: its destructor closes the file that another part of the program has opened in the meantime.
- `C53_violated_different_sizes`: Without a window, an image after a smaller one is cropped to the size of the first, and an image after a larger one is rejected.
- `C55_violated_elongated_image`: A very elongated image is scaled to an empty one: the size asked for is zero in one dimension.
- `C56_violated_nul`: Discrepancy: an escape whose first character is not a digit stands for the byte 0, with which C strings end.
- `C56_violated_sign`: Discrepancy: `%-` and a digit is not an escape, but it is taken for a negative number: `%-1` is the byte 255.
- `C56_violated_single_percent`: A string that is a single `%` is decoded to a NUL character instead of being ignored: `size() - 2` wraps around.
- `C58_violated_brace`: Decoding a string that contains `{` reads outside of a table.
- `C58_violated_foreign`: Discrepancy: a byte that is not of base64, like the end of a line, is neither skipped nor refused: it counts as the letter A.
- `C58_violated_unpadded`: Discrepancy: a text whose padding has been left out is not refused and is not decoded to the bytes that have been encoded: bytes 0 are added to them, one for each character that is missing.
- `C59_violated_close`: And closing the file, or destroying the object, deletes that memory a second time.
- `C59_violated_last_line`: Whatever the file, as soon as it has a line, the data of the last line read is deleted before it can be used: asking for the data of its channel reads memory that has been freed.
- `C62_violated_empty_value`: `k = ""` does not give an empty value, as the comment in the code says, but a value of two quotes: the comparison that should recognise it is made before the newline has been removed. It works only at the end of a file without newline.
- `C62_violated_no_value`: A key without a value is not entered at all.
- `C67_violated_seconds`: NetCDF: the seconds of the time are not part of the forecast reference time.
- `C69_violated_cut`: Zenith angles of the satellite are cut at 1 radian (57 degrees), as if they were cosines: all the points from which the satellite is seen lower than that, down to the horizon, have the same value.
- `C69_violated_longitude`: The zenith angle is computed for a satellite at longitude 0, also for images of satellites at other longitudes: where a satellite at 90 degrees east is at the zenith, the angle given is more than a right angle.
- `C70_violated_edge`: Reflectances: if the blocks of the source do not divide its width, the last block of every row cannot be read, since the whole block is asked for.
- `C71_violated_3608`: Pixel sizes: increment 3608 is read as the size of 3622, and is written as 3622.
- `C71_violated_near`: Pixel sizes: the size that the formula gives for the factor of the low resolution is not the known size; converted to a factor and back it becomes the known size, three millimetres less.
- `C71_violated_overflow`: Pixel sizes: a grid increment above 570 thousand, which a GRIB message can contain, is converted to a factor that does not fit in an integer: undefined behaviour.
- `C72_violated_closed_stdin`: If standard input is closed in the parent, and a pipe to the child is asked for, standard input is closed in the child too.
- `C72_violated_leak`: If the process cannot be made the ends of the pipes meant for it are never closed in the parent.
- `C72_violated_same_fd`: Standard output and standard error cannot be sent to the same file descriptor: it is closed when the first is redirected, and the child exits without calling `main`.
- `C72_violated_same_stream`: A stream redirected to the descriptor that it already has is closed.
- `C72_violated_stderr_to_1`: Standard error sent to descriptor 1 closes standard output.
- `C73_violated_keys`: The keys of a TECNAVIA file are never read: they stay as they were, whatever the file.
- `C73_violated_long`: Where `unsigned long` has eight bytes, as on the usual 64 bit systems, every file with a good header is read with undefined behaviour (see C34), whatever else is in it.
- `C73_violated_sync`: One of the two marks is enough: with the third byte right, whatever the first two bytes of a file are, it is read in the same way.
- `C73_violated_truncated`: A file that ends after some of the groups of lines, or after the header, is accepted: what is missing is black, and nothing tells it from a complete file with black lines.
- `C74_violated_day366`: Day 366 of a year that has 365 is accepted, as the first of January of the same year.
- `C74_violated_east`: With a clock more than twelve hours ahead of UTC (New Zealand in summer, Tonga, Kiribati), the date is that of the day before.
- `C74_violated_overflow`: A day of the year above 24856 makes the product of seconds overflow.
- `C74_violated_weekday`: The text of the date always says Sunday: it is wrong on the other six days.
- `C74_violated_west`: With a clock twelve hours behind UTC or more, the date is that of the day after.
- `C75_violated_station`: The number of a station is not read as two bytes: from 256 on it is always wrong, so that the keys of station 256 are given to station 16.
- `C76_violated_minus`: A sign is taken for a digit: `"-12"` is read as -288.
- `C76_violated_snmxwp`: `snmxwp_ir` has the bytes of `snmxwp_v1`: it always has its value, and its own bytes are not used.
- `C77_violated_gms_percent`: The visible images of GMS say that they are percentages, and no count has more than 1.
- `C77_violated_unset`: The coefficients of the water vapour images of the X format are not set: the same file has different tables according to what is in memory, whatever the coefficients in the file are.
- `C77_violated_vapour`: The water vapour images of GOES and GMS are not calibrated: every count is 1 kelvin.
- `C78_violated_bands`: Only the first band is exported: the others make no difference.
- `C78_violated_exception`: With the default template, an image of a satellite that is not a SEVIRI one, or of channel 0, makes the export throw an exception that it does not catch.
- `C78_violated_scale`: With scale zero all the pixels become missing as soon as one is.
- `C78_violated_srs`: A dataset without spatial reference is not refused: a null pointer is used.
- `C78_violated_stale`: When the file cannot be written, the export succeeds if there is an image in it already: it gives that image, whatever the source.
- `C78_violated_trace`: If /tmp/trace-gribapi cannot be opened, as when it belongs to somebody else, opening or exporting any image writes to a null pointer.
- `C78_violated_zero`: The missing value of the opened image is always 0 in channels 2 to 11: a pixel whose measure is zero becomes a missing one.
- `C79_violated_carry`: Without --band, an image with more bands than the first one loses those after; and one with less makes the program use a null pointer.
- `C79_violated_range`: A band that is not there is not refused: the image that could not be made is used, through a null pointer.
- `C79_violated_wrap`: Numbers are taken modulo 2^32: 4294967296 + k selects band k instead of being refused.
- `C80_violated_bands`: Two datasets of the same satellite and time with several bands are written by --conv to the same file, whatever the bands.
- `C80_violated_path`: A satellite name that starts with a slash, as a NetCDF file can have one, makes the converter write to an absolute path.
- `C81_violated_missing`: Forced calibration: missing pixels of the counts, like the space around the Earth, become measures unless their calibrated value is zero: the missing value is 0 for all bands, but it is the missing count times scale plus offset that is written.
- `C81_violated_range`: Forced calibration: with a negative scale the minimum is greater than the maximum.
- `C81_violated_stack`: Forced calibration: the block of the counts is kept on the stack, which has no room for it if the band has one block for all the image, like the bands of NetCDF files: a full disk image of 3712x3712 pixels needs 27 MB, and the stack usually has 8.
- `C81_violated_zero`: Forced calibration: a pixel whose measure is zero becomes missing.
- `C82_violated_channel`: xRIT: the channel of the segments is used as an index without a check: a file with channel 0 or above 12 makes the program read outside of the table of the calibrations.
- `C82_violated_projection`: xRIT: the longitude of a file whose projection is not geostationary is not set, and it is used.
- `C83_violated_compute`: MSAT_COMPUTE=reflectance for IR_039: an exception is thrown and the image that was opened is never closed (nor is it for any other exception there).
- `C83_violated_mismatch`: Reflectance of IR_039 when IR_108 has another georeference: it is refused with an exception, and the image of IR_108, which nobody owns at that moment, is never closed.
- `C85_violated_date`: NetCDF: an image without a date is written, and when it is opened has a date: the year 0, month 0 and day 0.
- `C85_violated_latlon`: NetCDF: every image with latitude and longitude is written, and when it is opened it is geostationary, over longitude 0, and without geotransform.
- `C85_violated_names`: NetCDF and NetCDF-24: if the name of a band is that of another band, or of a variable that is in every file (`time`), or is not allowed (an empty name), then the variable cannot be made, and this is not checked: a null pointer is used if the band has a channel; if not, the file is written without the band.
- `C85_violated_null`: NetCDF: an image without a spatial reference uses a null pointer.
- `C85_violated_satellite`: NetCDF: an image without the name of a satellite is written, but the driver cannot open what it wrote.
- `C85_violated_two`: The same for an image of Meteosat with two bands with the same name: the program stops, or the second is not in the file.
- `C85_violated_unset`: NetCDF and NetCDF-24: a band of integers without missing value is converted with the number that GDAL has for it, which is undefined.
- `C86_violated_date`: NetCDF-24: an image without a date has a date when it is opened: the year 0, month 0 and day 0.
- `C86_violated_null`: NetCDF-24: an image without a spatial reference uses a null pointer.
- `C86_violated_satellite`: NetCDF-24: an image of Meteosat 10 or 11, or of any other satellite, is written, and the file that was written is refused: the number of the satellite is written as the type of the level, which has to be 55 or 56.
- `C87_violated_byte_order`: The samples of an uncompressed image come out with their bytes swapped: a file that stores the sample 1 as the bytes 0, 1 gives 256.
- `C87_violated_empty_text`: So does an empty text message.
- `C87_violated_no_annotation`: A meteorological message, binary file, prologue or epilogue without an annotation record dereferences a null pointer.
- `C87_violated_no_structure`: An image without an image structure record dereferences a null pointer; so does a compressed one without a segment identification record.
- `C87_violated_prologue`: Reading the prologue of MSG is undefined whatever it contains: `DCRValues` is copied over the end of its array.
- `C87_violated_short`: A file that ends before the data field its header announces kills the process, whatever its type, instead of raising an exception.
- `C87_violated_unknown`: So does a file of an unknown type.
- `C87_violated_writes`: Reading a meteorological message or a binary file writes: a file named as the annotation says, which any directory can precede, is created or overwritten with the data field.
- `C88_violated_foreign_prologue`: A foreign satellite prologue that was read cannot be printed: the pointer printed is null.
- `C88_violated_fresh`: A data object nothing was read into cannot be printed: its type is not initialised.
- `C88_violated_keys`: A key without a NUL, as a binary key can be, is read past its end.
- `C88_violated_text`: A text without a NUL is read past its end.
- `C88_violated_uncompressed`: An uncompressed image that was read is printed past its end: its length is taken for a number of samples, while it is a number of bytes.
- `C89_violated_first`: If it is the first one, a null pointer is dereferenced.
- `C89_violated_inherits`: A file among the segments without a segment identification record takes the identity of the file read before it, and its place: one header object is used for all of them, and keeps the records of the previous file.
- `C90_violated_bits`: A number of bits above 30 in the file makes setting a channel undefined.
- `C90_violated_long_variable`: With a name of the variable of 31 characters or more all counts have the same value: the key is cut before the count.
- `C90_violated_names`: Only six characters of a name count: the channel of a file with a longer name takes the number, the name and the variable of another channel.
- `C90_violated_range`: The test of the range never rejects a count: one beyond the table gets what the file has under its key.
- `C91_violated_before_open`: Setting a channel before opening a directory is undefined.
- `C91_violated_empty`: The same for an empty file of samples: the name is that of the previous channel, the samples are gone.
- `C91_violated_has_channel`: Asking whether another channel is there changes the size that is reported of the samples.
- `C91_violated_missing`: When a channel cannot be set because its samples are missing, the object still says that its data are valid: it has the samples, the name and the table of the previous channel, but no longer its calibration coefficients.
- `C91_violated_print`: Printing an object without a channel, for example one that has just been opened, prints null pointers.
- `C92_violated_date`: A beginning without six numbers leaves parts of the date without values, which are used.
- `C92_violated_isdst`: `tm_isdst` is not set: in a place with daylight saving time the time that is exported depends on a value that is left from before.
- `C92_violated_offsets`: The offsets are exchanged: the column offset that is exported is the line offset of the area, and the other way round.
- `C92_violated_overlay`: The name of the overlay that the user gives is not used.
- `C92_violated_size`: When the file has fewer samples than the size in `INFO.DBI` says, memory after them is read.
- `C92_violated_status`: When the file cannot be created, the tool ends with the status of success.
- `C93_violated_cannot_open`: When the file named on the command line cannot be opened, the message printed by the copy and the conversion is read from a string that has been destroyed: the behaviour is undefined.
- `C93_violated_different_lengths`: When the lines of a channel have different lengths, an image is left that announces more pixels than it has.
- `C93_violated_failure_reported_as_success`: When there is no line of any of the three channels, nothing is written and the program reports success.
- `C93_violated_no_records`: A file with a sound header that announces zero records asks for 2^32-1 of them: the exception is not caught and every tool is terminated.
- `C93_violated_no_sector`: An image with less than 2656 lines in the file, as those of formats AC and B2, has no line in the sector: the tool uses the first of no lines.
- `C93_violated_sector_refused`: The sector extraction catches only exceptions of type `char*`: when the file cannot be opened, is truncated or is damaged the program is terminated instead of reporting the error.
- `C93_violated_short_line`: A line of the sector with less than 802 pixels is read after its end.
- `C93_violated_short_sector`: With up to eight lines in the sector there would be no line in a record: the number of records is the conversion of an infinite number.
- `C93_violated_success_reported_as_failure`: The program is documented to succeed if any of the three images is written: when the image of the water vapour channel is written it always fails.
- `C94_violated_area`: A window that is not in the image ends the program with `std::terminate`, instead of the message only.
- `C94_violated_name`: The name of the file has the channel and the time, and not the satellite: what two of them have seen at the same time goes to the same file, and replaces what is there.
- `C94_violated_sequence`: A file whose header says that it is segment 0, or has a number larger than that of the segments planned, makes the programs write outside of an array.
- `C94_violated_start`: The same samples with different coordinates: the whole image is said to begin in column and line 1, and the window that is the whole image in column and line 0.
- `C94_violated_unformatted`: A product without a data format is said to be "dumped in binary format", and the status is 0, but nothing is written.
- `C95_violated_meteosat`: The channels of the Meteosat satellites of the first generation have no text, and neither have those of satellites that are not known.
- `C95_violated_unknown`: Satellites that have a name here and that the library takes for no satellite.
- `C95_violated_validity`: Replaced pixels are said to be missing.
- `C96_violated_reflectance`: There is no channel for which radiances are converted: of the four tests on the channel number one is always true, and the program ends.
- `C97_violated_brightest`: The greatest sample of a segment is shown as the character NUL, in every picture printed.
- `C97_violated_hrv`: So it does for every product of the HRV channel, whose segments are half as wide as the picture, unless a sample is zero.
- `C97_violated_placement`: When there is a zero sample, the picture of a product of the HRV channel shows nothing in its right half, wherever the lines are in the full disk.
- `C97_violated_uncovered`: The program reads outside of its table of characters when a place of the picture of the product is not covered by a segment and no sample is zero: a missing segment is enough.
- `C97_violated_uniform`: The program divides by zero when all samples of a segment are equal, as in a segment of the HRV channel at night or outside of the disk.
- `C98_violated_bright`: Pixels of 128 and more are exported as negative numbers, to which the calibration table does not apply.
- `C98_violated_composite`: The visible composite of the B format, which has every column and line of the fine grid, is described like the infrared image of the B format, which has every second one: twice as many columns and lines as there are.
- `C98_violated_info`: OpenMTP_info, too, whenever it can print a file.
- `C98_violated_leftover`: Files of other satellites and parts of the disk other than formats A and B: the program is aborted and leaves a NetCDF file without an image.
- `C98_violated_meteosat6`: Images of Meteosat 6 are exported with a calibration of 1 for every count, in kelvin or per cent.
- `C98_violated_missing`: A file that cannot be opened, or one that is cut short, does not give an error status: both programs are aborted.
- `C98_violated_projection`: The projection is that of a satellite over longitude 0 whatever the longitude of the satellite.
- `C98_violated_release`: Every run that exports a file ends in undefined behaviour: the image is allocated by `new []` and released by `delete`.
- `C99_violated_bright`: Pixels of 128 and more are exported as negative numbers.
- `C99_violated_leftover`: When the file of the second image cannot be created, the program fails and leaves the file of the first.
- `C99_violated_long`: On machines on which `unsigned long` has eight bytes no file is exported: its reading is undefined.
- `C99_violated_missing`: A file that cannot be opened aborts the program.
- `C99_violated_summer`: When local time has daylight saving, `mktime` adds an hour to the time of the identification: the second image is named and labelled an hour late, although its time in seconds is right.
- `C99_violated_truncated`: A file that ends after any number of groups of lines is exported like a complete one, with status 0: the lines that are missing are black. (The lines of the images are `pix`, those after the `g`-th group all zeros.)
- `C99_violated_visible`: In visible images at full resolution the second half of every line is two pixels early, and the last two pixels are memory that was never written.
- `C100_violated_close`: No image is ever written without native2Image then deleting the same memory twice.
- `C100_violated_dump`: nativedump reads freed memory on every file that has a line.
- `C100_violated_header`: The contents of the level 1.5 header cannot be decoded without copying over the end of an array, whatever they are.
- `C100_violated_last`: The channel of the last line of the file cannot be exported: its last line has been freed.
- `C100_violated_letters`: A text header that does not have a letter for each of the channels, or has more than fifteen letters, makes reading undefined: the array of letters is not filled, or overflows.
- `C100_violated_name`: The name of the image depends on the format alone (every file, of any satellite, and every channel goes to the same name), and the scale has no effect on the image.
- `C100_violated_number`: So does a text header without the number of lines.
- `C100_violated_text`: Discrepancy: a channel that is no number is not refused: it is taken for channel 0.
- `C100_violated_truncated`: A file cut in its text header aborts both programs.
- `C100_violated_unselected`: A channel that is not in the file, or does not exist, makes the program abort.
- `C101_violated_attitude`: Violated: the fourth value of the attitude at the start of the image is the first of the attitude at its end; the file has three values of each.
- `C101_violated_histogram`: Violated: whatever the file says and whatever has been called before, the last 236 values of the histograms are given as zero.
- `C101_violated_horizon`: Violated: the times of the scan lines of the horizon are not those of the file, they are made of the bytes of the limits of the horizon: each time of four of the limits.
- `C101_violated_line_table`: Violated: other indices of `is_line_present_VISn` are not checked, and are undefined outside of the header.
- `C101_violated_shared`: Violated: the texts of two headers cannot be used together. The address given for the first header shows the text of the second after the accessor has been called for it.
- `C102_violated_char`: Violated: the text that `get_timechar` gives the address of, for any time of all four kinds, is gone.
- `C102_violated_end`: Violated: a generalized time without a zero after it, as in a header that is the last thing in memory, is read over its end.
- `C102_violated_unreadable`: Violated: what is not a time is not reported: the time is then that of the last reading 1900 years and one month before.
- `C102_violated_zone`: Violated: where local time is not UTC the Unix time of a generalized time, which is in UTC, is another one.
- `C103_violated_around`: Discrepancy: the degrees of --around are taken for coordinates of the projection. On an image whose pixels are at least 1000 units wide and high no area of at most 360 degrees is ever found: the null pointer that stands for the failure is used.
- `C103_violated_empty_size`: Discrepancy: --resize with an empty size is not refused; the character before the text is read.
- `C103_violated_junk`: Discrepancy: what follows the fourth number of --area is ignored.
- `C103_violated_limit`: Discrepancy: a picture asked for before --conv limits the size of what is converted, as if it were a picture.
- `C103_violated_overflow`: Discrepancy: a number of --area that is not an integer of the machine is not refused: reading it is undefined.
- `C103_violated_stretch`: Discrepancy: a text that is no number is no error for --stretch: it counts as zero, so that the range is empty.
- `C104_violated_entry_link`: Discrepancy: if the system does not tell the types of entries, a link is never said to be a link: what is asked about is the file it leads to, and if there is none an exception is thrown.
- `C104_violated_equal`: Discrepancy: iterators at different entries that are names of the same file are equal.
- `C104_violated_islnk`: Discrepancy: `islnk` is never true, not even for links, because it asks about the file the link leads to.
- `C104_violated_leak`: Discrepancy: when the first reading fails, or the stream cannot be opened, the file descriptor stays open.
- `C104_violated_loop`: Discrepancy: for a link that leads to itself `exists` throws.
- `C104_violated_rename_destination`: Discrepancy: `rename_ifexists` also says that there is no source, by returning false, when the source exists and it is the directory of the destination that does not.
- `C104_violated_rename_same`: Discrepancy: if both are names of the same file the answer is true although nothing is renamed: both names stay.
- `C104_violated_wall`: Discrepancy: when the way leads through something that is not a directory there is nothing at the path, and `exists` says so, but the other questions throw, also those with a default and those for files that may be missing.
- `C104_violated_which_directory`: Discrepancy: `which` also gives directories: they may be searched, which is taken for the permission to execute.
- `C104_violated_which_not_found`: Discrepancy: if no program of the name is found the name itself is given, as if it were a path.
- `C105_violated_empty_value`: Discrepancy: an empty value is not read back: its line is ignored.
- `C105_violated_no_section`: Discrepancy: a file without sections is not read back as it was: `k = v` is saved as `:k = v`, which is another key.
- `C105_violated_null`: Discrepancy: without any section, an entry without value makes a null pointer be printed.
- `C105_violated_outside`: Discrepancy: a key outside of sections, like those of a file before its first section, is not saved.
- `C105_violated_overflow`: Discrepancy: a section name of 1024 characters, which `iniparser_setstr` accepts, is written after the end of a buffer.
- `C105_violated_remark`: Discrepancy: values are saved without quotes, so that a value with a semicolon or a hash sign, which can be read from a quoted text, is cut there when it is read back.
- `C106_violated_null`: Discrepancy: a spatial reference without a geographic coordinate system (such as a local one) is not refused: the null pointer given by the library is used, by images computed for places and by the georeferencer; so is the null pointer for a transformation that the library does not have, and the georeferencer then uses it when it is asked for a place or a pixel.
- `C106_violated_size`: Discrepancy: the functions that copy an image with a given size ignore it: the copy has the size of the area, or of the whole image.
- `C107_violated_chdir`: Discrepancy: a `Tempfile` keeps the path it was given, which is relative for the default constructor: if the program changes its directory the file stays, and a file of the same name in the new directory is removed instead.
- `C107_violated_closed`: Discrepancy: `PreserveFileTimes` keeps the number of the file, not the file: if it is closed in the scope, the destructor throws and ends the process.
- `C107_violated_hard_limit`: Discrepancy: an object of a resource whose hard limit is lowered in its scope, by a process that may not raise it, cannot restore it: its destructor throws and ends the process.
- `C107_violated_remove`: Discrepancy: if the file cannot be removed, because its directory may not be searched any more, the destructor ends the process.
- `C107_violated_reused`: Discrepancy: and if the number is used again for another file, that file gets the times of the first, which keeps the times of now.
- `C108_violated_bar`: Discrepancy: bars are meant to have at most 76 asterisks, but that of a greatest count of 151 has 151, and goes past a line of eighty characters.
- `C108_violated_histogram`: Discrepancy: a histogram whose greatest count is from 1 to 75 divides by zero: printing the radiometric quality is then never defined, whatever the other values are (msat/hrit/MSG_data_RadiometricQuality.cpp:511-519: `maxval / 76` is zero).
- `C108_violated_offsets`: Discrepancy: of the 42 offsets of the detectors only the first twelve are printed.
- `C108_violated_prologue`: Discrepancy: the text of a prologue includes the configuration of the image processing facility, which is never read from the prologue of an xRIT image (it is only there in native files): it is never defined.
- `C108_violated_straylight`: Discrepancy: of every row of eight straylight corrections only the first four are printed: values that only differ in the others have the same text (msat/hrit/MSG_data_RadiometricProc.cpp:500-514).
- `C108_violated_timeliness`: Discrepancy: whether the image is not nominal because of its timeliness is not printed: statistics that only differ in that have the same text (msat/hrit/MSG_data_ImageProdStats.cpp:132-143).
- `C108_violated_title`: Discrepancy: the timeliness and completeness record has the title of the production statistics.
- `C109_violated_background`: Discrepancy: a background colour that is not bright is written with the codes 90 to 97 instead of 40 to 47 (msat/utils/term.cc:84): the background does not change, and the text is shown in the bright version of the *background* colour, whatever foreground colour was asked for.
- `C109_violated_background_wrong`: So no text (written where the background was another) with a background colour that is not bright is shown as asked.
- `C109_violated_nested`: Discrepancy: the end of a scope resets everything (msat/utils/term.cc:29), so what follows a scope inside another one is shown in the default look instead of that of the outer scope.
- `C109_violated_nothing`: Discrepancy: `color(0, 0, s)`, or a background that is only `bright`, does not leave the look alone: the sequence without codes that it writes is a reset (msat/utils/term.cc:96-99, 117-120).
- `C110_violated_handler`: Discrepancy: a handler set inside a task counts the ends of the tasks around it but not their beginnings: after them its indentation is negative, and messages inside as many new tasks are not indented.
- `C111_violated_own_value`: Discrepancy: an entry cannot be set to its own value by the pointer that a lookup returned: `dictionary_set` frees the old value before it copies the new one (msat/iniparser.c:398-400), and so copies from freed memory. This happens after any history that gives the entry a value.
- `C112_violated_first_key`: Discrepancy: the first of the two keys that may have the position of the image is refused, and the export does not try the second one: its value is taken from the arguments with another type than it has, for every image that can be exported.
- `C112_violated_sample`: Discrepancy: without the sample messages of the library, keys are set on a null pointer.
- `C112_violated_satellite`: Discrepancy: whatever spacecraft the image is of, and whatever its values are, the message says Meteosat second generation, SEVIRI and scaled radiance.
- `C112_violated_short`: Discrepancy: a message cut short when the disk is full is opened and returned like a whole one.
- `C112_violated_unwritten`: Discrepancy: when the message cannot be encoded, or the file cannot be written, what is opened and returned as the copy is the file that was there.
- `C113_violated_exception`: Discrepancy: a message that has the wave number of a channel but whose satellite is not one with SEVIRI makes the opening throw an exception that it does not catch, instead of refusing the file.
- `C113_violated_leak`: Discrepancy: an object that is asked for a second message never releases the first: its handle is lost, and its file too when it comes from one.
- `C113_violated_moved`: Discrepancy: an object that was moved cannot be used again for another message: the file of its trace went with it, and a null pointer is written to.
- `C113_violated_signature`: Discrepancy: a file that has a zero byte before GRIB is not opened, although the library would find the message: the search stops at the zero.
- `C113_violated_size`: Discrepancy: sizes of 2^31 points and more are not refused: an image with 2^32 - 1 columns has size -1, and one with 2^16 columns and lines cannot be read: the number of its pixels overflows.
- `C113_violated_unset`: Discrepancy: a failed look up prints a variable that was never given a value, which the standard says is undefined. It happens for every message without the key `satelliteNumber`, as are all those of edition 1 that this driver writes, however complete they are.
- `C113_violated_values`: Discrepancy: when the library cannot give the values, as when the message has more of them than points, reading the pixels throws an exception that nobody catches.
- `C113_violated_wave_number`: Discrepancy: a message with wave number zero makes the conversion of an infinite number to an integer.
- `C114_violated_digits`: Discrepancy: numbers are shown with few digits (six with the default precision of C++ streams: no text has more than thirteen characters), so images with different geotransforms, offsets or scales look the same: a user cannot tell them from what is shown.
- `C114_violated_geotransform`: Discrepancy: when an image has no geotransform, as a GRIB message without the keys of the grid, what is shown is six numbers that were never given a value: what `GetGeoTransform` returns is not looked at.
- `C115_violated_date_line`: Discrepancy: for an area over the date line, from `west` eastwards to a smaller longitude, the bounding box is its complement: of all the longitudes only the two of the corners are in both.
- `C115_violated_narrow`: Discrepancy: columns are `long` but the bounding box has `int`s: a corner in a column that is not an `int` is never in the rectangle.
- `C115_violated_overflow`: Discrepancy: a box that is 2^31 columns wide, or wider, has an undefined width, also if its columns are `int`s.
- `C116_violated_least`: Discrepancy: the least number for the first column, or for a scale factor, is undefined behaviour.
- `C116_violated_long`: Discrepancy: pixels of variables of type `int` are read as `long`s, of eight bytes, into a block with room for half of them.
- `C116_violated_projection`: Discrepancy: a file with an edition number and a level type but without a variable `Projection` is undefined behaviour: a null pointer is used.
- `C116_violated_sizes`: Discrepancy: the image has the size of its first band, but other bands may be smaller: their pixels out of their first block cannot be read, whatever is in the file. Nothing is said about it when the file is opened.
- `C116_violated_time`: Discrepancy: a file without time is taken for an image of the day 0 of the month 0 of the year 0.
- `C116_violated_zero`: Discrepancy: with a scale factor of zero the geotransform is said to be there, but it is made of NaN.
- `C117_violated_again`: Discrepancy: the first pixel of an earlier window is moved to the left by a later one that has no first pixel.
- `C117_violated_status`: Discrepancy: an option that does not exist ends the programs with status 0, as if all had been done, whatever else is asked for.
- `C117_violated_window`: Discrepancy: a window of XRIT2NetCDF with only one number is not refused: it has no lines and no pixels.
- `C117_violated_words`: Discrepancy: words that are not options, like the names of files, are not refused: they change nothing.
- `C118_violated_process`: Discrepancy: on systems without locks of open file descriptions, threads of one process that have opened the file each for itself are not kept apart: a lock to write is granted to both.
- `C118_violated_reuse`: Discrepancy: a request that `ofd_getlk` has found not to be possible cannot be used to lock, because the answer is written over it: `ofd_setlk` throws instead of returning false.
- `C119_violated_band`: Discrepancy: a picture of a band that cannot be read: instead of an error the null pointer is used, in every image that has such a band after others that can be drawn.
- `C119_violated_template`: Discrepancy: --copymd with a file that cannot be opened uses a null pointer.
- `C120_violated_after`: Discrepancy: once the program has been told that the child has terminated, the signal is sent all the same: if another program has got a process of the same number meanwhile, that process gets it.
- `C120_violated_exec`: Discrepancy: a program that cannot be executed looks like one that exits with code 71.
- `C120_violated_ignored`: Discrepancy: in a program that ignores SIGCHLD the wait for a child that terminates just before the program falls asleep throws, and its status is lost.
- `C120_violated_no_arguments`: Discrepancy: starting a child without arguments and without a program is undefined.
- `C120_violated_race`: Discrepancy: a child that terminates just before the program falls asleep does not end the wait: the whole timeout is slept.
- `C120_violated_restart`: Discrepancy: an object can start another child; if the first one has terminated, the second is said to have terminated while it is running.
- `C120_violated_unstarted`: Discrepancy: `terminate()` before the child is started sends SIGTERM to the program itself, and to all the processes of its group, and `kill()` sends them SIGKILL.
- `C121_violated_after`: Discrepancy: a plugin that is loaded when GDAL has registered its drivers comes after them: files that both can open are opened without what meteosatlib knows of them.
- `C121_violated_crash`: Discrepancy: a NetCDF file of others with an edition number and a level type but no variable `Projection` is undefined behaviour for any program that opens it with GDAL, once meteosatlib is there.
- `C121_violated_failure`: Discrepancy: a NetCDF file of others that GDAL can open is not opened any more, once meteosatlib is there, if it has a `Satellite` and a `SampleX` that is not 1: the driver of meteosatlib says that it is a failure, and with versions of GDAL where failures end the search no other driver is tried. With the others it is opened if the other drivers of meteosatlib leave it.
- `C121_violated_null`: Discrepancy: when the library is preloaded in a program with no other `GDALAllRegister`, calling it calls the null pointer.
- `C121_violated_version`: Discrepancy: with another version of GDAL none of the drivers is there, and `GDALAllRegister` returns as if all was well.
- `C123_violated_whole`: Discrepancy: whatever the file has, reading the prologue as a whole is undefined: 63 bytes are copied into a member of 24. No image can be opened by a program whose behaviour is defined.
- `C124_violated_blank`: Discrepancy: a product that was found and whose samples all have no measure (count 0, or a count whose entry in the table is 0) is not converted to an image without measures: there is no image, and the file that was there is left as it was.
- `C124_violated_zero`: Discrepancy: the missing value of an opened GRIB file is 0 in the channels 2 and 3, whatever the bitmap of the message says: a sample that was measured, with a count whose radiance is 0, is missing after the conversion.
- `C125_violated_size`: Discrepancy: pixel sizes between a tenth of a millimetre and a millimetre from the standard ones are taken for those when a NetCDF file is written, but are refused when a GRIB file is: a product that cannot be converted to GRIB can be converted to NetCDF, and that to GRIB.
- `C126_violated_whole`: Discrepancy: the conversion to GRIB starts with the prologue as a whole, whose reading is undefined whatever the file has: 63 bytes are copied into a member of 24. No conversion has a defined result.
- `C128_violated_blank`: Discrepancy: a product whose first segments have no measure (an image taken at sunset) is not converted to GRIB with those alone, although it is with one more that has a measure.
- `C129_violated_short`: Discrepancy: a GRIB message that has not as many values as its grid has points is opened, but when it is converted to NetCDF a null pointer is used.

## Trusted base

- Lean 4.33.0 kernel.  No axiom of our own, no `sorry`, no `native_decide`, no `bv_decide`.
- Axioms: every theorem depends on a subset of `propext`, `Classical.choice`, `Quot.sound`; the exact
  subset of each theorem of MANIFEST.json is in AXIOMS.md (output of `#print axioms`).
- The correspondence between the text of /repo and the model is by reading; every definition cites
  the lines it follows and states how it simplifies them.  "Code modelled" lists, by file, which
  lines are modelled; all others are not.
- Outside of the model, and taken as parameters or assumed to behave as documented: the C++ compiler
  and library, the operating system (files, processes and signals have small models of their own where
  a property needs them), GDAL, NetCDF, ecCodes/GRIB API, the wavelet, JPEG and T.4 decompression
  libraries, floating point rounding (formulas over the reals or rationals, except where bits are
  modelled), threads (the library starts none), memory leaks.
- Integers are modelled with the widths of a 64 bit Linux machine (`int` 32, `long` and `size_t` 64)
  and, in C, little-endian.  Undefined behaviour is an outcome (`ub`) that no theorem accepts as a result.

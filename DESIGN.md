# Formal model of oifitslib: design

The code under study is the C library in `/repo/src/oifitslib` and the four
programs in `/repo/src/util`. This file says what is modelled, how each property
of `properties.jsonl` is stated and proved, and what is trusted.

## 1. Trusted base

* Lean 4.33.0's kernel. No axioms are added. Every theorem depends on at most
  `propext`, `Classical.choice` and `Quot.sound`. There is no `sorry`,
  `native_decide` or `bv_decide`. `decide +kernel` is used for concrete examples
  and counterexamples, and for finite case distinctions inside proofs; it is
  evaluated by the kernel.
* The reading of the C source: each definition of the model cites the file and
  lines it models, and says where it simplifies. Definitions without a citation are
  for the C language (loops, array accesses, operators), for the libraries below, or
  for the program which calls the library. The code was not run.
* Libraries, modelled from their documentation and not verified:
  * GLib: `GList` is a finite sequence; `GHashTable` is a finite map whose
    insert replaces; `g_strlcpy` and `g_snprintf` truncate; `g_assert` aborts;
    `g_pattern_match_string` is the `*`/`?` matcher, written out in `Model/Filter`
    and proved equivalent to a declarative definition (C37); `GString` is a string;
    `GOptionContext` turns the command line into a sequence of options (its syntax
    is not modelled).
  * CFITSIO: `Model/Fits` (section 4).
  * C: integers do not overflow (they are `Int`/`Nat`), except in `Machine`, where dates are
    computed in `long` of 32 bits or more, and in `Sizes`, where sizes of reference maps and
    positions in them are computed in integers of any number of bits; the allocator succeeds for
    non-zero sizes, floating-point operations are deterministic functions. A
    variable which is read before it is written has an arbitrary value, which is
    a parameter (`Undef`); theorems hold for all of them.

## 2. Floating point

The model is parametrised by an arbitrary structure `FP` of two carriers
(`double`, `float`) with uninterpreted operations (`<`, `-`, `+`, `*`, `/`,
`fabs`, `pow(x,0.5)`, conversions, literals, decimal conversion in keywords,
`printf` conversion). Theorems hold for every implementation of floating point,
including IEEE 754 with NaN. Where an arithmetic fact is needed (for instance
that `<` agrees with the order of the numbers represented) it is an explicit
hypothesis (`Spec.Lawful`), and a concrete instance (`ratFP`, rationals with a
NaN) shows that it can be met.

## 3. Effects

C functions become total functions. `Outcome` has three cases: `ok`, `abort`
(failed `assert` or `g_assert`, `chkmalloc` of size 0) and `ub` (NULL
dereference or access out of bounds). Arrays are lists; an index out of the
list's bounds is `ub`, never a default value. Functions which change an object
return the new value. Loops become folds or structural recursion.

Functions which access a FITS file are in the monad `FitsM`: the state is the
list of HDUs, the current HDU and the status variable. The text functions are in
`TextM`: the state is the static buffer `pGStr`. Programs are in `Prog`: the
state is what was printed and all files of the system, and a program ends with
an exit code, by abort, or with undefined behaviour.

## 4. Files

A FITS file is a list of HDUs. Each has a type, keywords and columns; a column
has a name, a type, a repeat count, a unit, dimensions and cells.
`fits_write_key` appends (or updates), `fits_read_key` returns the first match
or `KEY_NO_EXIST`, `fits_get_colnum` finds a column by name (ignoring case) or
gives `COL_NOT_FOUND`, `fits_insert_col` inserts. Reading converts between types
of numbers as CFITSIO does; numbers which do not fit give `NUM_OVERFLOW`. Double
keywords keep fifteen digits; trailing blanks of strings are lost. Every routine
does nothing if the status is not zero. Comments, checksums and the physical
layout are not modelled. Errors of CFITSIO while it writes (a full disk) are in
`Fault`: any call may fail, with any error code, and leave anything in the file.
Errors while a file is read are modelled in `ReadFault`, for whole calls of the reading functions of read_fits.c.

## 5. What is modelled

| module (`lean/Verif/Model`) | code |
|---|---|
| `Types` | `exchange.h`, `oifile.h`, `oicheck.h`: the data structures |
| `Date` | `datemjd.c`, all |
| `Check` | `oicheck.c`, all but `free_check_result` (see `Results`) |
| `File` | `oifile.c`: header, dates, counting, lookup, duplicating, upgrading |
| `Format` | `oifile.c` and `oifilter.c`: the text functions |
| `FilterSpec`, `Filter` | `oifilter.c`: filtering |
| `Iter` | `oiiter.c`, all |
| `Merge` | `oimerge.c`, all |
| `Fits` | the part of CFITSIO which is used |
| `Write` | `write_fits.c`, and `write_oi_fits` of `oifile.c` |
| `ReadFault` | `read_oi_fits` while calls which read the file fail |
| `CliFaults` | the programs while calls which read their input and calls which write their output fail |
| `CliReadFault` | the programs while calls which read their input fail |
| `Fault` | the same as lists of calls of CFITSIO, any of which may fail; the programs which write files |
| `Machine` | dates computed in machine integers, and reading and merging with them |
| `Sizes` | reading, writing, copying and filtering OI_VIS tables, with sizes of reference maps in machine integers |
| `Read` | `read_fits.c`, and `read_oi_fits` of `oifile.c` |
| `Memory` | which blocks of memory are allocated, used and freed: `alloc_fits.c`, `free_fits.c`, `chkmalloc.c`, `oifile.c`, `oifilter.c`, `oimerge.c`, and the allocations in `read_fits.c` |
| `Cli` | `oifits-check.c`, `oifits-filter.c`, `oifits-merge.c`, `oifits-upgrade.c`, and option parsing in `oifilter.c` |
| `Demo` | `oitable-demo.c`: `demo_read` |
| `Calls` | `write_fits.c`: any sequence of calls; `oitable-demo.c`: the end of `demo_write` |
| `DemoText` | `oitable-demo.c`: `scan_opt_string`, `scan_opt_int`, `scan_opt_double`, the beginning of `demo_write`; `fscanf` of the C library for decimal numerals |
| `DemoMain` | `oitable-demo.c`: `main`, and how `demo_write` and `demo_read` ask for names |
| `DemoMemory` | `oitable-demo.c`: which blocks of memory are allocated and freed |
| `Python` | `python-oifits/*.i`: what the generated wrappers do with memory |
| `PyScript` | `python-oifits/*.i`: values, exceptions and files of Python scripts |
| `PyTuple` | `python-oifits/oifits_typemaps.i`: conversion of tuples |
| `Results` | `oicheck.c`: `free_check_result` and the buffer of `format_check_result`; `python-oifits/oicheck.i` |

Not modelled: hexadecimal numerals, infinities and NaN in texts read by `oitable-demo`, what SWIG generates
by itself, the syntax of command-line options, `print_*` functions which only
print what a `format_*` function returns, CFITSIO's extended file name syntax
except for a leading `!`, integer overflow (except in the computation of dates, `Machine`, and of sizes of reference maps, `Sizes`), and what is said in section 4.

The allocation functions of `alloc_fits.c` are modelled where they are called: a
fresh array has arbitrary contents (`Undef`), and a size of zero aborts.

Independent definitions used in the statements are under `lean/Verif/Spec`,
proofs of auxiliary facts under `lean/Verif/Proof`, and the theorems named after
properties under `lean/Verif/Props`, each with an `example` showing that its
hypotheses are met by a concrete case.

## 6. Properties

| id | property | model | how it is stated and proved |
|---|---|---|---|
| C01 (proved) | date2mjd counts calendar days | `Date` | Arithmetic identities on `Int` with truncating division, against an independently defined Gregorian calendar (day count by leap years and month lengths). Unbounded in the year. |
| C02 (proved) | date to MJD and back is the identity | `Date` | Arithmetic identities on `Int` with truncating division, against an independently defined Gregorian calendar (day count by leap years and month lengths). Unbounded in the year. |
| C03 (proved) | mjd2date yields a valid date and inverts date2mjd | `Date` | Arithmetic identities on `Int` with truncating division, against an independently defined Gregorian calendar (day count by leap years and month lengths). Unbounded in the year. |
| C04 (proved) | Check results report level, count and locations exactly | `Check` | Invariant by induction over the list of reports. |
| C05 (proved) | check_unique_targets detects exactly the repeated targets | `Check` | Each check is shown to make exactly the reports of an independently defined list of breaches, by induction over tables, records and channels; 'no breach iff condition' follows. |
| C06 (proved) | check_targets_present detects exactly the dangling TARGET_IDs | `Check` | Each check is shown to make exactly the reports of an independently defined list of breaches, by induction over tables, records and channels; 'no breach iff condition' follows. |
| C07 (partial) | check_elements_present detects exactly the dangling STA_INDEX values | `Check` | As C05. The check aborts in one case, characterised exactly (`C07_abort_iff`). |
| C08 (partial) | check_arrname flags exactly the tables lacking ARRNAME | `Check` | As C05; the location of OI_INSPOL tables is wrong, proved with a witness. |
| C09 (proved) | check_corr_present detects exactly the unresolved CORRNAMEs | `Check` | Each check is shown to make exactly the reports of an independently defined list of breaches, by induction over tables, records and channels; 'no breach iff condition' follows. |
| C10 (partial) | check_tables detects missing mandatory tables and bad revisions | `Check` | As C05; aborts in one case, characterised exactly (`C10_abort_iff`). |
| C11 (proved) | check_header and check_keywords flag exactly the bad keyword values | `Check` | Each check is shown to make exactly the reports of an independently defined list of breaches, by induction over tables, records and channels; 'no breach iff condition' follows. |
| C12 (proved) | check_flagging finds exactly the unflagged data with negative errors | `Check` | Each check is shown to make exactly the reports of an independently defined list of breaches, by induction over tables, records and channels; 'no breach iff condition' follows. |
| C13 (proved) | check_t3amp, check_waveorder, check_time and check_flux decide their stated conditions | `Check` | As C05, one theorem per check. |
| C14 (partial) | No check modifies the dataset or aborts on a readable dataset | `Check` | From C05-C13; outcomes are characterised for all datasets as allocated. Checks are functions of the dataset, so they cannot modify it. |
| C15 (proved) | oifits-check reports what the checks find | `Cli`, `Format`, `Check` | The run of the program is computed for any file system: text, exit code, files. |
| C16 (proved) | Lookups return the first match and NULL iff there is none | `File` | List induction: `find?`-style characterisation. |
| C17 (partial) | After reading, references by name resolve to the first table with that name | `File`, `Read` | Invariant of the hash tables built while reading; false for two references, with witnesses. |
| C18 (proved) | count_oi_fits_data counts the unflagged data | `File` | Loop invariant: sum over tables of the number of false flags. |
| C19 (proved) | is_atomic means one target, one instrument, bounded time span | `File` | Loop invariants; bounds in terms of `Lawful` arithmetic. |
| C20 (proved) | Observation time span and wavelength range are exact bounds | `File` | Loop invariants; bounds in terms of `Lawful` arithmetic. |
| C21 (proved) | set_oi_header derives the header from the tables | `File` | Case distinction over the tables of the dataset. |
| C22 (partial) | Duplicating a table gives an equal table | `File` | Equality of structures; false for OI_VIS, with a witness and what is copied instead. |
| C23 (proved) | Upgrading a table changes only what version 2 requires | `File` | Equality of structures. |
| C24 (proved) | An iterator visits exactly the accepted data, once each, in order | `Iter` | Refinement of the state machine to the enumeration of accepted positions, by induction on the number of calls. |
| C25 (proved) | An exhausted iterator stays exhausted and never reads out of bounds | `Iter` | Refinement of the state machine to the enumeration of accepted positions, by induction on the number of calls. |
| C26 (proved) | Iterator uv coordinates are baseline over wavelength | `Iter` | Refinement of the state machine to the enumeration of accepted positions, by induction on the number of calls. |
| C27 (proved) | Unfiltered iteration agrees with count_oi_fits_data | `Iter`, `File` | From C24 and C18 by counting. |
| C28 (proved) | Filtering keeps exactly the records that satisfy the criteria, in order | `Filter` | Refinement of the loops to `List.filter` and to selections of channels. |
| C29 (proved) | Filtering keeps exactly the channels in the wavelength range | `Filter` | Refinement of the loops to `List.filter` and to selections of channels. |
| C30 (proved) | Filtering only ever sets flags, exactly for out-of-range data | `Filter` | Refinement of the loops to `List.filter` and to selections of channels. |
| C31 (proved) | Rejecting flagged records leaves no all-flagged record and never aborts | `Filter` | Refinement of the loops to `List.filter` and to selections of channels. |
| C32 (proved) | Filtered datasets have no orphan tables and no new dangling references | `Filter` | From the refinement of C28-C31. |
| C33 (proved) | A target filter selects one target and renumbers it consistently | `Filter` | From the refinement of C28-C31. |
| C34 (proved) | The initial filter accepts all data | `Filter` | From the refinement of C28-C31. |
| C35 (partial) | Filtering is idempotent | `Filter` | Filtering twice is computed from the refinement; false for some OI_INSPOL tables and target filters, with witnesses. |
| C36 (partial) | Filtering an OI_INSPOL table stays within its buffers | `Filter` | Bounds of the buffers from the numbers of channels, as an equivalence: an out-of-bounds write if and only if a kept record has more channels than the first; with witnesses. |
| C37 (proved) | Name patterns mean * and ? globs | `Filter` | The matcher is proved equivalent to a declarative definition of globs. |
| C38 (proved) | Merged targets are unique by name and numbered 1..n | `Merge` | Invariant of the table of targets over the fold of all inputs. |
| C39 (proved) | Merging preserves which target each record observed | `Merge` | Invariant of the table of targets over the fold of all inputs. |
| C40 (partial) | Merging preserves all data in order | `Merge` | Order-preserving correspondence of tables and records; IVISERR false, with a witness. |
| C41 (partial) | Merging preserves instrument references | `Merge` | Invariants of the lists and hash tables of names; lookups may fail for names which look generated, with a witness. |
| C42 (partial) | Merging preserves array references | `Merge` | Invariants of the lists and hash tables of names; lookups may fail for names which look generated, with a witness. |
| C43 (partial) | Merged table names are unique | `Merge` | As C41. |
| C44 (proved) | Merged header keywords summarise the inputs | `Merge` | Folds over the headers of the inputs. |
| C45 (proved) | Merged DATE-OBS is the earliest input date | `Merge` | Folds over the headers of the inputs. |
| C46 (proved) | Merge output is a version-2 dataset | `Merge` | Folds over the headers of the inputs. |
| C47 (proved) | Table counts agree with the table lists | `Read`, `Filter`, `Merge` | Invariants of each function which makes a dataset. |
| C48 (proved) | Lookup tables agree with the table lists | `Read`, `Filter`, `Merge` | Invariants of each function which makes a dataset. |
| C49 (partial) | Writing then reading a table gives the table back | `Write`, `Read` | Symbolic execution of writer and reader of each table, for any number of rows and channels; false for OI_INSPOL, with a witness. |
| C50 (partial) | Writing then reading a file gives the dataset back | `Write`, `Read` | From C49, by induction over the lists of tables. |
| C51 (proved) | A pending error makes every I/O call a no-op | `Read`, `Write` | Each function with a pending error returns without change. |
| C52 (proved) | EXTVER numbers tables of each type from 1 | `Write` | From the exact contents of the file written. |
| C53 (partial) | Reading by name finds the named table | `Read`, `Fits` | Search loop over HDUs, by induction: where it stops, exactly. False if an extension which is not a binary table comes before the table; what happens then is proved too. |
| C54 (proved) | Sequential reading visits each table of a type once, in file order | `Read` | Induction over HDUs. |
| C55 (proved) | Column format strings are built correctly | `Write` | Formatting of column types for any repeat count below 10000. |
| C56 (partial) | oifits-filter does not overwrite without permission | `Cli` | All paths of the program obey a relation between file systems before and after; false for names beginning with `!`, with a witness. |
| C57 (proved) | Iteration with a filter agrees with filtering | `Iter`, `Filter` | Relation of both refinements. |
| C58 (partial) | Merging preserves correlation matrix references | `Merge` | Invariants of the lists and hash tables of names; lookups may fail for names which look generated, with a witness. |
| C59 (partial) | Merging does not invent references | `Merge` | Invariants of the hash tables of names; false if another input has the name, with a witness. |
| C60 (proved) | Version detection | `File` | Characterisation of the version test. |
| C61 (partial) | A table lacking a mandatory column or keyword is never read successfully | `Read` | A failing column or keyword makes the status non-zero and later calls keep it; false for OI_FLUX, with a witness. |
| C62 (proved) | Files written follow the OIFITS format | `Write` | The file written is computed exactly (`Spec.fileOf`). |
| C63 (proved) | Reading any file ends with a dataset or an error | `Read` | Absence of undefined behaviour for any file, by induction over HDUs and tables. |
| C64 (proved) | Datasets read are well formed | `Read` | Lengths of arrays as allocated by the reading functions. |
| C65 (partial) | A second round trip changes nothing | `Write`, `Read` | From C50 and C62; false for OI_INSPOL and blank names, with witnesses. |
| C66 (proved) | Datasets read hold the readable tables of the file | `Read` | Induction over HDUs. |
| C67 (proved) | The summary lists every table | `Format` | The text is computed by a calculus of appending to the buffer, and compared with an independent description. |
| C68 (proved) | The text for a filter shows all of its criteria | `Format` | The text is computed by a calculus of appending to the buffer, and compared with an independent description. |
| C69 (proved) | Options of oifits-filter make the filter | `Cli` | Each option changes one variable; induction over the sequence of options. |
| C70 (proved) | oifits-filter writes the filtered dataset | `Cli` | The run of the program is computed for any file system; conversely, exit status 0 implies each step succeeded. |
| C71 (proved) | oifits-merge writes the merged dataset to a new file | `Cli` | The run of the program is computed for any file system; conversely, exit status 0 implies each step succeeded. |
| C72 (proved) | oifits-upgrade adds the keywords version 2 needs | `Cli` | The run of the program is computed for any file system; conversely, exit status 0 implies each step succeeded. |
| C73 (partial) | The files which the programs make can be read again | `Cli`, `Read`, `Write`, `Filter`, `Merge` | Filtered and merged datasets are shown to be storable, then the round trip theorem is applied to the file the program makes. |
| C74 (proved) | oifits-check passes exactly the files which conform | `Check`, `Cli` | What the checks find is empty iff the dataset meets `Spec.Conforms`; then C15. |
| C75 (partial) | Filtering keeps to the rules which oifits-check examines | `Filter`, `Check`, `Cli` | Each rule is shown to carry over to the dataset which meets `Spec.Filtered`; through files with C73, C74 and C76. |
| C76 (partial) | Writing and reading keep to the rules which oifits-check examines | `Write`, `Read`, `Check` | C50 gives the dataset read; each rule is shown to carry over, with look-ups as the reader builds them. |
| C77 (partial) | What is read from a file is what the file holds | `Read`, `Fits` | `Spec/Held.lean` states which keyword and column belongs to each member; for each reading function, a value computed from the HDU alone is shown to be what it returns (`Sem`), and that value satisfies the relation, and exists if anything does (`Tells`). |
| C78 (proved) | Memory is never misused | `Memory` | A heap of numbered blocks, with undefined behaviour for misuse; decisions which depend on data are parameters of the model, so that quantifying over them covers all data. `Spec/Memory.lean` lists the blocks of a dataset; the proofs are Hoare triples which say exactly which blocks are allocated (`Own`). |
| C79 (partial) | Memory is never lost | `Memory` | As C78: the triples give the blocks allocated exactly. |
| C80 (partial) | Merging keeps to the rules which oifits-check examines | `Merge`, `Check`, `Cli` | From the theorems on merging (C37-C48): each table of the output comes from one of an input with its names, target numbers and revision changed in a known way; each rule carries over. For files, with C73, C74 and C76. |
| C81 (partial) | oifits-upgrade makes files which oifits-check passes | `Cli`, `Read`, `Write`, `Check` | C73 gives the dataset in the output; the keywords which the reader derives for version 1 files (C21, C66) are shown not to be empty, and each rule carries over as for C76. |
| C82 (proved) | What is left when writing is cut short | the calls of write_oi_fits as a list; the file after the first k of them, or after one which ends with an error (between tables; a table torn in the middle is not modelled) | each call adds one HDU; the first k HDUs are the file of the dataset with its first tables; C50 and C76 for that dataset |
| C83 (partial) | Two filters one after another are one filter with the criteria of both | apply_oi_filter as for C28-C36; Spec/FilterTwo says when a filter combines two others | channels kept by the second filter among those kept by the first are those of the combined filter; then records, tables and references one by one; counterexamples for flags and closure quantities |
| C84 (partial) | oitable-demo lists every data table of a file | `demo_read` of oitable-demo.c as a program over the FITS model: five loops, the second connection, the shared status (Model/Demo.lean) | an exact description of when the program ends with success and of what it prints, by induction on the loops; the three ways in which this differs from the property are proved as counterexamples |
| C85 (proved) | Only the order among tables of one type counts when a file is read | `read_oi_fits` over the FITS model, with the search for the next table and the moves among HDUs (Model/Read.lean, Model/Fits.lean) | a relation between runs on two files: each reader looks only at the HDU it finds, shown once per reader, and the loop over one type visits the same tables in both files |
| C86 (partial) | Tables written one by one, in any order, are read back | sequences of calls of the functions of write_fits.c, and the end of `demo_write`, over the FITS model (Model/Calls.lean) | by induction on the calls, with the header written into a file which has tables already as a separate case; then the readers are run on the file, type by type |
| C87 (partial) | Python programs do not misuse memory | what the wrappers generated from the .i files do with memory, on top of the memory model of C78 (Model/Python.lean) | an invariant on the blocks of objects, data and tables taken out, kept by every step that keeps four rules; each rule is shown to be needed |
| C88 (partial) | Assigning to a tuple attribute stores the values, or raises and changes nothing | the conversion functions and typemaps of oifits_typemaps.i (Model/PyTuple.lean) | by induction on the sequence |
| C89 (proved) | Check results and texts stay valid as long as promised | check functions, format and free functions as calls on variables, string chunks and the shared buffer (Model/Results.lean) | an invariant on variables, chunks and buffer, kept by every call that keeps the rules |
| C90 (proved) | Python checks yield their level and a lasting result | the wrappers of oicheck.i and of `__str__` on top of the model of C89 (Model/Results.lean) | each step is some calls which keep the rules of C89 |
| C91 (partial) | oitable-demo reads the tables a text describes | fscanf of the C library for the directives used, and the reading part of demo_write (Model/DemoText.lean) | each fscanf call with its format consumes the words of its items, by induction on the directives; then by induction on rows and channels |
| C92 (partial) | Datasets may be merged in steps | merge_oi_fits_list and merge_oi_fits (Model/Merge.lean); the comparison in Spec/MergeSteps.lean | the hash tables and lists built for the whole list are those built for the merged part, step by step, extended by the rest: an invariant relating the two states, by induction over the inputs |
| C93 (partial) | Iterating over a merged dataset gives the data of the inputs | merge_oi_fits_list (Model/Merge.lean), iterators (Model/Iter.lean), count_oi_fits_data (Model/File.lean) | C24 on both sides; then C39, C40 and C41 table by table, record by record and channel by channel |
| C94 (partial) | Filtering before or after merging gives the same data | merge_oi_fits_list (Model/Merge.lean), apply_oi_filter (Model/Filter.lean) | What is left by filtering is what the criteria select (as for C57) in the merged dataset and in each input; the data of merged datasets are those of the inputs (as for C93), also if these have been filtered |
| C95 (partial) | Two runs of oifits-filter make the same file as one | oifits_filter (Model/Cli.lean), apply_oi_filter (Model/Filter.lean), write_oi_fits (Model/WriteFile.lean), read_oi_fits (Model/ReadFile.lean) | Filtering commutes with what writing and reading do to a dataset, table by table; two filters are one (as for C83); the files are equal since writing depends on contents only |
| C96 (partial) | What the programs do does not depend on what was in memory | Undef (Model/Read.lean): one value of each type stands for what was in memory; oifits_check, oifits_filter, oifits_merge, oifits_upgrade (Model/Cli.lean) | Spec.Filled says which columns a file needs; OiFits.blank clears the members which mean nothing; all of reading, checking, filtering, merging and writing is shown to agree on datasets with the same blank |
| C97 (partial) | Files may be merged in steps with oifits-merge | oifits_merge (Model/Cli.lean) on a file system | Spec.Kept says that a file holds the intermediate dataset without loss; merging is shown not to see what a file does not keep (merge_saved), which reduces the runs to C92 |
| C98 (partial) | oitable-demo makes the file described and lists it | oitable_demo (Model/DemoMain.lean): fgets, both halves of the program, the files | the file is known from C86 and C91; C84_exact_partial says when demo_read succeeds, and the tables of each type are found at one position each (resolves_one) |
| C99 (partial) | The order in which datasets are merged makes no difference to the data | `Merge`, `Iter` | from the exact description of merged tables (C38 to C45, C93), which consists of one part for each input; uniqueness of what the header summarises and of what an iterator gives |
| C100 (proved) | A narrower filter never gives more data | `Iter`, `Filter` | every criterion of the selected data is monotone; then the exact results of iteration (C24) and of filtering (C57) |
| C101 (proved) | oitable-demo does not misuse or lose memory | `DemoMemory`, `Memory` | the rules for allocating and freeing single tables of C78; induction over the tables of each kind |
| C102 (proved) | Data which meet a filter are left alone | `Filter`, `Cli`, `File` | each table which meets the criteria is rebuilt from the same records and channels; then C73 |
| C103 (proved) | Iterating over a saved dataset gives the same data | `File`, `Write`, `Read`, `Iter` | C50 and C17 give the tables which are read and how names are looked up in them; C57's description of an iterator as a selection is carried from one dataset to the other |
| C104 (partial) | What iterating over the files which the programs make gives | `Cli`, `Merge`, `Filter`, `File`, `Iter` | C73, C93, C57 and C103 composed; names made by merging fit on a header card; a filtered dataset is what filtering leaves of it |
| C105 (partial) | Python scripts and programs do the same | `PyScript`, `Cli` | both are run to their end: the calls of the script succeed exactly if the steps of the program do, and hand on the same values (C70, C71, C15) |
| C106 (partial) | Attributes of a Python Filter | `PyScript`, `PyTuple` | induction over the script: what a filter is follows from the assignments to it, the last of which decides |
| C107 (proved) | What Python calls change | `PyScript` | every call is one of four kinds: it changes only the text buffer, makes a dataset, changes a filter, or writes a file; then induction over the script |
| C108 (partial) | What Python tells about targets, stations and wavelengths | `PyScript`, `File`, `Read` | C16 and C17, which tell what is looked up in a dataset which was read |
| C109 (partial) | Merged and filtered files in either order | `Cli`, `File`, `Merge`, `Filter`, `Iter` | induction over the files which are filtered: what is written for each, and that it can be merged; then C104 (iterating over merged and filtered files) for both ways |
| C110 (proved) | Errors while a file is written are never taken for success | `Fault`, `Write`, `Cli` | the functions which write are lists of calls: without failures the lists do the same as `Write` (monad laws); a status which is not zero stays (induction over calls and tables); the programs with and without failures are compared step by step |
| C111 (partial) | Computing dates does not overflow | `Machine`, `Date`, `Merge`, `Read` | each operation of `date2mjd` and `mjd2date` is checked; bounds of all intermediate results for any width (`omega`, with truncating division bounded from both sides); what `sscanf` stores is bounded by the field widths (induction over digits); `read_oi_fits` is split before its last step |
| C112 (partial) | Errors while a file is read are reported | `ReadFault`, `Read` | each call of `read_next_oi_X` either does the same as without error or ends with any code at any HDU in between; induction over the loops, whose bound on iterations counts the failing calls; the lists are compared with the tables which can be read, one after another (`tablesFrom`) |
| C113 (partial) | A program which cannot read its input fails and writes nothing | `CliReadFault`, `ReadFault`, `Cli` | the programs with any function for reading files; a relation between programs (the same, or stopped before a file is changed) which is kept by sequencing; induction over the input files of oifits-merge; C112 |
| C114 (partial) | Exit code zero means that nothing failed, in reading or in writing | `CliFaults`, `CliReadFault`, `Fault`, `ReadFault`, `Cli` | the programs with any functions for reading and for writing files; the relations of C110 and C113, each kept by sequencing, composed; invariants on files kept by every step |
| C115 (partial) | Sizes of reference maps are computed without overflow | `Sizes`, `Read`, `Write`, `File`, `Filter` | products and positions as machine integers whose overflow is the outcome `ub`; equality with the functions in unbounded integers by congruence along the program, and overflow from the result by a relation kept by sequencing |

## 7. Defects found

Each of these is proved of the model, with a concrete witness. (The theorem is
given in brackets.)

1. `dup_oi_vis` copies RVISERR to IVISERR, so merging corrupts IVISERR
   (`C22_dup_oi_vis_false`, `C40_vis_preserved_false`).
2. `check_tables` and `check_elements_present` abort on some invalid datasets
   instead of reporting them (`C10_abort_iff`, `C07_abort_iff`); oifits-check then
   dies (`C15_abort`).
3. `check_arrname` reports OI_INSPOL tables with number 0
   (`C08_inspol_location_false`).
4. Filtering an OI_INSPOL table whose records belong to instruments with
   different numbers of channels writes out of bounds (`C36_inspol_overflow`).
5. Filtering is not idempotent for some OI_INSPOL tables and target filters
   (`C35_inspol_counterexample`, `C35_target_counterexample`).
6. Merging may give two tables the same name, and references may then find the
   wrong one, if input names look like generated ones (`C43_unique_false`,
   `C41_lookup_false`); references to a missing table may be captured by another
   input's table (`C59_captured`).
7. `read_oi_fits` does not enter the CORRNAME of OI_FLUX and the ARRNAME of
   OI_INSPOL tables in its lookup tables (C17 counterexamples).
8. OI_INSPOL: the Jones matrices are read with the wrong type, so they change in
   a round trip (`C49_inspol_counterexample`, `C50_inspol_counterexample`,
   `C65_inspol_counterexample`).
9. `read_oi_array` and the other functions which read by name stop at the first
   extension which is not a binary table, whatever its name: no table after an
   image can be read by name (`C53_blocked`, `C53_counterexample`).
10. `read_next_oi_flux`: the test for the optional STA_INDEX column discards the
    error of a missing mandatory column, so the table is read with undefined
    contents (`C61_flux_counterexample`). `read_oi_vis_opt` does the same with
    the error of a missing CORRINDX column.
11. Names which consist of blanks only are lost in a round trip
    (`C65_blank_counterexample`).
12. `make_tform` aborts for 10000 channels or more (C55).
13. Tables without rows or channels abort when read (the size of `chkmalloc` is
    zero); see C63.
14. oifits-filter overwrites an existing file without `--clobber` if the name
    begins with `!` (`C56_counterexample`); with `--clobber` the old file is lost
    even if the new one cannot be written (`C70_clobber_loses`).
15. oifits-upgrade accepts a missing INSMODE (`C72_insmode_counterexample`), and
    reports success for data tables without ARRNAME although its output then
    breaks a rule (`C81_counterexample`).
16. Integers outside 16 bits which were read from J columns make writing fail
    after part of the file was written (`C70_clobber_loses` uses this).
17. Memory is lost when a damaged table is skipped, when a file cannot be read,
    when two rows of OI_TARGET have the TARGET_ID which a filter accepts, and when
    a filter accepts a record of OI_INSPOL but none of its channels
    (`C79_lost_reading`, `C79_lost_unreadable`, `C79_lost_target`,
    `C79_lost_inspol`).
18. oifits-check does not examine the TARGET_ID of OI_INSPOL records; merging a
    file which it passes may therefore read through a null pointer
    (`C80_inspol_counterexample`). If an input has an OI_ARRAY table without a
    name, the output may break a rule which the inputs kept
    (`C80_nameless_counterexample`).
19. oitable-demo does not list OI_VIS tables which precede the OI_TARGET table,
    lists OI_VIS2 tables with the CORRNAME of the last OI_VIS table, and prints
    uninitialised memory if there is none (`C84_counterexample_order`,
    `C84_counterexample_corrname`, `C84_counterexample_undefined`).
20. The Python interface. A table, record or column is not kept alive by a
    reference to it (`C87_table_outlives_counterexample`). Assigning a list which is
    not empty leaves a dangling pointer (`C87_assign_counterexample`), since the
    typemap for arguments of functions, which frees the list after the call, is also
    used for attributes. `get_nelement`, `get_nwave`, `get_eff_wave` and
    `get_eff_band` read through NULL for unknown names
    (`C87_unknown_name_counterexample`). Indices of records are not checked
    (`C87_index_counterexample`). The destructor does not free the struct, and what
    `apply`, `merge` and the checks return is never freed (`C87_lost`, `C90_kept`). Integers are truncated
    (`C88_int_truncated`). Filter has no attribute uvrad_range: assigning it has no
    effect and raises no exception (`C106_counterexample`). A name of 71 characters
    is stored without its end (`C106_assign`). The interpreter crashes for the name of
    a table to which no data table refers (`C108_counterexample`).
21. oitable-demo. Items which begin with the same letters (amptyp and amporder,
    phityp and phiorder, fov and fovtype) are confused if the first is left out
    (`C91_exact`). The fovtype of a station is read without a limit
    (`C91_overrun`), and a missing text file is not noticed (`C91_no_text`). A file
    name on a last line without newline loses its last character
    (`C98_last_line`). If the input ends before the name of the output file, the
    name of the text without its last character is used (`C98_no_output_name`).
22. Merging. If no dataset has a DATE-OBS, the merged dataset gets 2132-09-01, and
    any later merge of it aborts, as `date2mjd` refuses that year
    (`C92_no_date_abort`). A mandatory keyword for which there was no value becomes
    UNKNOWN, which a later merge takes for a value (`C92_keyword_false`).
23. Reading. The members for columns which are not there are left as they were in
    memory. Most have no effect, but the MJD of an OI_FLUX table without that column,
    and indices into a matrix of an OI_VIS table without columns for them, are
    written to the output of oifits-filter (`C96_mjd_counterexample`,
    `C96_index_counterexample`).
24. Integers. In a file of version 1, an MJD far out of range makes the computation of
    its date overflow (`C111_read_counterexample`). So does the size of the reference
    map of an OI_VIS table with 46341 channels or more (`C115_read_counterexample`,
    `C115_dup_counterexample`).
25. Errors while a file is read. An error while a correlation, polarisation or data table
    is read is not reported: the dataset lacks the table and the status is that of success
    (`C112_skipped_counterexample`). An error with the code for the end of the file is not
    reported for any table (`C112_eof_counterexample`). So oifits-check may pass a file which
    breaks rules (`C113_check_counterexample`), and oifits-filter may write a file which lacks
    tables and end with exit code zero (`C113_filter_counterexample`, `C114_filter_counterexample`).

## 8. Tests of the theorems

`seeded/LOG.jsonl` records edits to the model which mimic bugs, and which
theorems failed. Edits which no theorem noticed led to stronger theorems, as
noted there.

# Formal model of ripcalc in Lean 4

Source modelled: `/repo/src` (Rust, 13 files). Model and proofs: `/verif/lean/Verif`.
Properties: `/verif/properties.jsonl`.
Claims: `/verif/MANIFEST.json`. Seeded-bug experiments: `/verif/seeded/LOG.jsonl`.

## 1. Layout

| directory | content |
|---|---|
| `Verif/Model/*` | executable model, one file per Rust file, every definition cites file and lines |
| `Verif/Spec/*` | small independent vocabulary used by the property statements (no model helpers) |
| `Verif/Proofs/*` | lemmas |
| `Verif/Props/*` | the property theorems `Cnn_...`, with examples that meet their hypotheses |
| `Verif/Witness/*` | every property theorem that has hypotheses, applied to a concrete case (where no example in `Verif/Props` does it already) |
| `Verif/Conformance/*` | the model evaluated on the project's own test assertions and on the examples of its README |

Of the property theorems 379 have hypotheses. For each of them there is an `example` that applies it by name to literal networks,
texts, runtimes or devices, so that every hypothesis is discharged for that case: 61 of them beside the theorem, 318 in
`Verif/Witness`.

`Verif/Conformance` contains tests of the model, not proofs about the program: they are evidence that the model is a model of
this program, because the expected values were written by the authors of the program. They are generated from `/repo` by
`tools/gen_conformance.py`. No property rests on them.

A second test of the model is `tools/differential.py`: it compares the model, run by Lean's interpreter, with
`tools/transliteration.py`, a line-by-line copy of the Rust source in Python that was written from the source alone, on random
command lines of all modes (10 000 command lines, with and without colours and overflow checks: output, messages, exit codes and
panics are the same).

A property theorem that is stated for every lawful address type is instantiated with both address types in
`Props/Families.lean` (or next to it), so that nothing stays conditional on the laws.

## 2. How Rust is modelled

* **Outcome monad** `Exec α` = `ok a | panic p | diverge`. A Rust function that can `unwrap`, `expect`,
  index, `assert!` or overflow returns `Exec`. `diverge` is non-termination (or unbounded recursion).
* **`while` loops** use one combinator `loopM step s`, the least fixed point of the step function
  (Lean `partial_fixpoint`), so termination is a theorem, never an assumption; non-termination is
  provable too. `for` loops over vectors are structural recursions or folds.
* **Overflow checks**: arithmetic that can overflow takes a `Profile` (`checked` = debug build: panic;
  `wrapping` = release build). Theorems quantify over both.
* **Unspecified behaviour of std** (hash iteration order, tie breaking of `sort_unstable*`) is a
  structure `Runtime` of functions together with the laws std documents; theorems hold for every `Runtime`.
* **Integers**: `u8/u16/u32/u64` are `BitVec`; `i32` is `Int32`; `i64` intermediate sums are `Int` (proved not to overflow);
  `usize` is `Nat` with explicit 64-bit bounds where a value can leave the range; `BigInt` is `Int`.
* **Strings** are `List Char`.
* **Trait `IpAddress`** is the class `IpAddr` with the instances `V4`, `V6`. Proofs about generic code use
  the class `LawfulIpAddr`, whose laws are *proved* for both instances (no axioms).
* **Output** is a list of events (stdout text, styled text, stderr message) paired with an `Exec` result,
  so output printed before a panic is kept.

## 3. Trusted base

**Lean.** The kernel of Lean 4.33. Axioms: at most `propext`, `Classical.choice` and `Quot.sound`; section 6 lists them per
theorem. No `sorry`, no own axiom, no `native_decide`, no `bv_decide`. (`decide +kernel` lets the kernel evaluate; it adds no axiom.)

**The reading of the source.** There is no extraction tool. Every model definition cites the lines it stands for.

| source | model |
|---|---|
| `addr.rs:1-607` | `Model/Addr.lean` (types, operators, arithmetic, parsing, display), `Model/Messages.lean` (`Display`, `Debug` of the errors) |
| `net.rs:1-253` | `Model/Net.lean`, `Model/NetOrd.lean` (the derived order) |
| `cidr.rs:1-79` | `Model/Cidr.lean` |
| `bit_manip.rs` | `Model/BitManip.lean` |
| `cmds/mod.rs` | `Model/Parse.lean`, `Model/Pattern.lean` (the pattern texts), `Model/Messages.lean` |
| `cmds/show_net.rs` | `Model/ShowNet.lean` |
| `cmds/minimize.rs:1-136` | `Model/Minimize.lean` |
| `cmds/derange.rs:1-82` | `Model/Derange.lean` |
| `cmds/resize.rs:1-156` | `Model/Resize.lean` |
| `cmds/split.rs:1-136` | `Model/Split.lean` |
| `cmds/enumerate.rs:1-81` | `Model/Enumerate.lean` |
| everything with a `usize` that can leave its range, for any word size | `Model/WordSize.lean` |
| `console.rs` | `Model/Output.lean`, `Model/Terminal.lean` |
| `main.rs` | `Model/Main.lean`, `Model/Messages.lean` (usage text), `Model/Process.lean` (`main`, arguments and streams as bytes, exit status), `Model/Stdio.lean` (streams that can fail) |

**Behaviour of std and of the dependencies**, written down from their documentation and from knowledge of their source (the
sources are not in this sandbox):

* std: `str::parse` of unsigned integers (with its error kinds), `split`, `count_ones`, slices, `Vec`, derived `Ord`/`PartialEq`,
  `HashSet`/`HashMap` as finite sets/maps, `sort_unstable*`, formatting of integers, `{:?}` of strings and derived `Debug`.
  Which non-ASCII characters `{:?}` escapes is a parameter (`CharTable`); theorems hold for each table that satisfies the
  stated law that control characters are escaped. UTF-8 (`Model/Process.lean`) is compared with the bit patterns of the Unicode
  standard (`Spec/Utf8.lean`). `env::args` panics at an argument that is not UTF-8; a panic of the main thread gives status 101;
  `process::exit` writes out what is buffered.
* `regex`: the four patterns are modelled by hand-written matchers (`Model/Parse.lean`), and C31/C32 state the language and the
  captures declaratively (`Spec/Regex.lean`). C90 ties them to the pattern texts: these are parsed (`Model/Pattern.lean`, a grammar
  of the part of the syntax that is used is in `Spec/Pattern.lean`) and matched as the crate's documentation describes; trusted is
  that the crate finds a match if and only if there is one and reports the groups of one. The patterns use only explicit classes such as `[0-9]`, and `$` means the end of the text.
* `num-bigint` 0.4: decimal parsing (optional sign, underscores after the first digit) and printing, comparison, addition,
  shift. The exact accepted language is stated in `Spec/Counts.lean` (C79).
* `console` 0.15: `colors_enabled()` is a parameter; the control sequences of a styled text are in `Model/Terminal.lean`.

**Assumptions.** 64-bit `usize` (what other sizes change is C112); default cargo features (`console`, `num-bigint`). Without them the code does not compile
(`cfg!` at `main.rs:59`, `show_net.rs:114`, `console.rs:53` keeps references to items that are compiled out), so there is no other
configuration to model.

**Not modelled.** Memory exhaustion and stack size; in the description of failing writes (`Model/Stdio.lean`) a
call that is interrupted forever (`EINTR`, std repeats it; a closed stream, `EBADF`, is a device that takes everything, because std takes that for success);
the message of a panic; platforms other than Unix, where arguments are no byte strings;
`Hash` implementations (any iteration order is allowed instead); the dead code of `mod tests`, and `contrib/`. Loops that print
up to 2^128 lines are modelled as if time and output were unlimited.

## 4. How each property is modelled and proved

| id | modelled | proof |
|---|---|---|
| C01, C02, C03, C14 | `Addr.lean`: bytes, chunks, bit operators, order on `BitVec` | numeric view `toNat`; bit extensionality |
| C04, C05 | `add_internal` etc. | case analysis on carry, `omega` |
| C06 | `sub_internal` as written | **false**: borrow is wrong when top halves differ. Exact characterisation of the correct inputs + counterexample |
| C07 | mutual recursion `add_offset`/`subtract_offset` | **false** for `i32::MIN`: panics (checked) / diverges (wrapping); true for all other offsets |
| C08, C09 | `Display`/`FromStr` on `List Char` | split/join inverse, digit parse/print inverse |
| C10 | same for IPv6 | **false**; round-trip proved *iff* no single-zero-group-at-an-end shape |
| C11 | parser | characterisation by groups before/after the gap |
| C12 | zero-run search | first longest run; structural proof |
| C13 | `to_full_string` | **false**: always the empty string |
| C15, C16, C17 | `cidr.rs`, `bit_manip.rs`, the 256-entry table | induction on the byte list; the table checked entry by entry with `decide` |
| C18, C19 | `unravel/weave` | induction on the mask bits |
| C20–C24 | `net.rs` constructors, counts | bitwise extensionality; bijection with host-bit strings |
| C25–C27 | broadcast/hosts/next | order embedding of host bits (fixed net bits) and of net bits (zero host bits) |
| C28 | `is_superset_of` | bitwise argument |
| C29 | `intersects` | **false** for lopsided masks; true for CIDR pairs; one direction for all |
| C30 | display + parse | from C08/C10/C31; partial for IPv6 because of C10 |
| C31–C36 | `cmds/mod.rs` | matcher correctness against declarative shapes |
| C37, C38 | `NetworkIter`, `enumerate` | loop invariant, sorted list of members |
| C39–C41 | `range_to_subnets` | loop invariant; **false** at the top of the address space: every range ending there panics, the full range diverges in release builds; all others proved |
| C40, C46 | minimality | laminar family of aligned blocks: disjoint and sibling-free lists are minimal covers |
| C42–C45, C47 | `minimize_subnets` | invariant over the merge loop; C45/C47 **false** for lopsided input (counterexample), proved for CIDR and for all inputs whose networks are nested or disjoint |
| C48–C50 | `resize_network` | loop invariant in unraveled space |
| C51–C55 | `split_subnet`, `output_split` | loop invariant on aligned, non-increasing blocks; the possible results described independently (`SplitInto`, `Spec/Splitting.lean`), every one of them arises with some lawful sort, and a split is refused exactly if there is none; C53, C54, C55 **false** in corner cases (counterexamples) |
| C56–C58 | `do_main`, all commands | case analysis, no-panic lemmas |
| C59–C61 | `show_net.rs`, `console.rs` | text equality with colours; every line of a display is a remark, the line with the number of hosts, or shows an address and the bits of that same address (`C59_rows_*`); without them (`_any`) the same text with line breaks inserted (`Rendered`), from the relation between the two runs; C61 **false** (println instead of print) |
| C62 | `output_network` and its callers | the printed block equals a text assembled from the members of the network (`Spec/Output.lean`); the `_any` theorems of C58–C65 are for both colour settings |
| C63, C64, C65 | the commands `minimize`, `resize`, `split` | composition of the theorems about the functions with those about the display and the parser; complete case distinction over all argument lists |
| C66 | `do_main` | exactly which runs end normally, panic or diverge |
| C67, C68, C69 | `output_binary_*`, `output_ipv4_class` | bit by bit; C68 **false** for masks that fix too few bits; exact condition for every mask |
| C70–C73 | all parsers with their errors | the fault of a text is defined declaratively (`Spec/Errors.lean`), exists iff the text is no value, and is unique |
| C74, C75 | texts of all messages, `{:?}` | no control characters; unique readability |
| C76, C77 | all commands | induction over the output events |
| C78 | `write_in_color`, `console` | a small terminal (`Spec/Terminal.lean`) that interprets the control sequences shows the events |
| C79 | `BigInt` parsing | equivalence with a declarative grammar |
| C80 | all commands | for each mode: message written ↔ a declarative complaint about the arguments (`Spec/Complaints.lean`) |
| C81 | all commands, texts | the characters on standard error against a declarative wording (`Spec/Wording.lean`) |
| C82 | `from_str` of `Ipv6Address`, `parse_netspec` | the grammar of RFC 4291 as a relation (`Spec/Rfc.lean`); **false** in both directions; exact conditions for both |
| C83 | `fmt` of `Ipv6Address` | the text of RFC 5952 as a relation; **false** for addresses with isolated zero groups only; exact condition |
| C84 | `minimize_subnets` | minimality and uniqueness of minimal CIDR lists (C46) for both lists; "nothing to merge" through the invariant of the merge loop |
| C85 | `resize_network`, `enumerate`, `range_to_subnets`, `split_subnet`, `minimize_subnets` and their commands | C84 applied to the outputs of the other operations; at command level through the round trip of the texts (C08, C30) |
| C86 | `range_to_subnets` | an explicit description with at most 2k−2 networks by induction on the bits, compared with the minimal one (C41); the lower bound by counting the ends of the pieces; the exact number by explicit covers and, for the lower bound, points of which no CIDR block in the range contains two |
| C87 | `color_test`, `do_main` | evaluation for all runtimes and further arguments, through the terminal of C78 |
| C88 | `minimize_subnets` | invariant of the merge loop over an inductive description of the joins; exactness by uniqueness of the ways a network arises; `C88_steps`: the result is the one list the described steps lead to, for all masks, by induction on the rounds and determinism of the steps |
| C89 | `main`, `env::args`, both streams | UTF-8 decoder and encoder inverse to the bit patterns of the standard; C39, C66, C74, C76–C78 carried over to bytes and statuses |
| C90 | the four pattern texts of `cmds/mod.rs` | a parser of pattern texts, checked against a grammar; matching defined on the syntax tree; anchored patterns reduced to C31 |
| C91 | all loops | the loop combinator as a least fixed point equals an inductive count of rounds; a measure that changes by one in each round |
| C92 | all commands with their output events | every command's output ends with a line end, except for two texts; the display by cases on the number of addresses |
| C93 | `print!`, `println!`, `eprintln!` and `process::exit` down to `write(2)`: `LineWriter` and `BufWriter` of std, a device as a state machine | invariant of the buffered writer: delivered and buffered bytes are what was written so far, and a line end is never left in the buffer at the end of a call; C92 for the rest |
| C94 | the display, with the widths 11, 21 and 46 | bounds on the lengths of the texts (15 and 39 characters for addresses, 3 for prefixes, 39 for counts), then line by line; the resize and split modes through C64 and C65 |
| C95 | the same, the resize and split modes, `do_main`, standard output as characters and as bytes | the first blank ends a text and the texts are injective; where the mask is not printed (resize, split) it follows from the base and the broadcast address |
| C96 | minimize, derange and enumerate modes from arguments to standard output | the text of a network is injective, a line end is in none; C84, C40 and C37 for the lists |
| C97 | `doMain` on two arbitrary platforms (`Runtime`) | every mode compared on two platforms; the networks of a split are laid out in the same places whatever the sort does with equal requests; two lawful sorts that disagree for the exact converse |
| C98 | `doMain`, `process` | the panics are those of C66; the outcomes of C65 say what is shown before (`Aborts`); the uncoloured run has the same events without colours, and the last one is a line |
| C99 | `split`, `derange` through `doMain` | the list of the rest is minimal (C40) and ascending, hence equal to the result for the range; the greatest used address is odd, so the address after it is never the last one |
| C100 | `doMain` and the process, all modes | `Verif/Spec/Program.lean` describes the program without its functions, as text in coloured pieces; each mode is compared with its part of the description by the theorems of the other files (C39, C54, C58, C66, C70, C79, C80, C88, C93, C94), in both directions |
| C101 | `print!`, `println!`, `eprintln!` with one device for both streams (`performShared`, `Model/Stdio.lean`) | invariant of the buffered writer as for C93; before a message there are only whole lines, so the buffer is empty |
| C102 | `write_in_color` for any text and width (`padTextBytes`, `Model/Pad.lean`; `padText` is the same for ASCII) | cases of the sign and the length |
| C103 | `resizeNetwork`, `minimizeSubnets`, `rangeToSubnets` composed with themselves and each other; also `minimize` and `derange` with printed lines as arguments (IPv6: where a printed base address cannot be read again, see C10, a message) | numbers of the networks within the address space (blocks of consecutive numbers); minimized lists are determined by their addresses |
| C104 | `usageLines`, `doMain` with every mode | partial: false of the code in three places (section 5). Proved: exactly which numbers of arguments bring the usage text, which modes agree with their synopsis, that a wildcard is never a target for resize but everything else that can follow a slash is, and which modes refuse mixed families; from C80 |
| C105 | `minimizeSubnets`, `rangeToSubnets` | proved: an invariant of the merging keeps every given network inside one of the set; adding a network of the chain within the given addresses does not change the result (C46, C44), so it is inside one of the results, and disjointness (C45) and antisymmetry give the rest; ranges through C85 |
| C106 | `splitSubnet`, `outputSplit`, `split` | proved: the used addresses are an interval (C52); the interval for the lesser requests is inside the other, because lowering the largest block saves at least what rounding the base address down less costs; commands from C65 and C55; `C106_gaps` shows why the report needs a CIDR network |
| C107 | `splitSubnet`, `split` | proved: a network with c + 2 distinct addresses has at least as many as the block for c, so disjoint networks inside n bound the sum of the blocks by the size of n (pigeonhole on their addresses); then C53 gives success within n and C52 that the used addresses are an interval of that length; `C107_gaps` shows why the first part needs a CIDR network |
| C108 | `Net`, `minimizeSubnets`, `rangeToSubnets`, `resizeNetwork`, `enumerateNet`, `splitSubnet` at two address types | proved: being at the same place (`Spec/Moved.lean`) preserves membership, inclusion, twins, joins and order, hence the steps of C88; ranges through minimizing (C85), resizing by the network numbers (C50), splitting by the allotment (C52); `C108_end_differs` shows why the end of the address space is excluded |
| C109 | `enumerate`, `showNet`, `doMain` | proved: the loops over the arguments are cut in two; the parts are compared with whole runs |
| C110 | `doMain` in all modes and its parsers | proved: the run depends on the arguments through the parsed values only (`Spec/Alike.lean` says what it is to say the same); the syntaxes from C32; success from C76 and C80 |
| C111 | `rangeToSubnets`, `minimizeSubnets` | proved: addresses each two of which mix to an address outside the range must lie in different networks whatever the masks; one end of each network on one side of a suitable address gives such addresses |
| C112 | `Model/WordSize.lean`: every function of the program in which a `usize` can leave its range, with the word size as a parameter; `C112_same_64` says that with 64 it is the other model | proved: reading a number with a smaller bound is a function of reading it with a larger one; the commands by composition; ranges by comparing the two loops round by round, the whole space separately |
| C113 | the whole program | proved from the descriptions of the texts (C09, C11, C31, C79) and of the program (C100); each character occurs in one of a few accepted texts, which are evaluated |
| C114 | `range_to_subnets` | proved: the list described is constructed by induction on the power of two; it covers the range and is as long as the result (C86), so it is the result (C40); the converse by C84 and C85 |
| C115 | `minimize_subnets`, two runs | proved from the description of the results as the greatest networks within the addresses (C105): a result apart from N is greatest before and after; what disappears inside N are the other halves on the way from the added network up to N |
| C116 | `Net`, `minimize_subnets`, `range_to_subnets`, `resize`, `enumerate`, two runs | `Spec/Renaming.lean`: `KeepsPrefixes` compares quotients by powers of two, `Renamed` says that the addresses of one network are the renamed addresses of the other; the results are determined by the addresses alone (C105, C48, C49, C37), so only these are compared |
| C117 | `do_main`, all modes | lines as in C94 (`IsLine`); proved from the description of the program (C100) for the text with colours and for the pieces on lines of their own; the numbers in headings are bounded because the networks exist |
| C118 | `split_subnet`, `output_split`, `do_main` | `SameSizes` compares the least numbers of host bits (`HostBitsFor`) as multisets; the sorted requests have the same sizes, so the same networks are allotted; the output from the blocks and the tail of C97 |
| C119 | `do_main`, all modes | line ends counted in the description of the program (C100): each line of a display has one line end, pieces have none; the numbers of networks from `Resized`, `SplitInto`, `Listing` and C86 |
| C120 | `range_to_subnets`, `minimize_subnets` | the rows of networks before and behind (C114) have as sizes the binary digits of two numbers whose digits are complementary; nothing in them can be joined (C47, C84), so they are what minimizing returns |
| C121 | `do_main` without a mode and with `--enumerate`, `enumerate`, `resize_network` | the display of the description of the program (C100) read with the positions of addresses in a sorted list; sorted lists with the same elements are equal |
| C122 | parsing of networks, addresses, masks and numbers of hosts; `do_main` | induction over the places where zeros are added; separators split both texts at the same place, a numeral is unmoved, and equal readings give equal runs (C110) |
| C123 | the derived `Ord` of `IpNetwork`, `intersects`, `is_superset_of`, `resize_network`, `minimize_subnets` | the three ways in which two addresses compare; two aligned blocks are nested or disjoint; the smallest common network by going up one prefix length at a time |
| C124 | `split_subnet`, `resize_network` | the results of a split lie one directly after the other (C52) and the pieces are sorted and cover the network (C48); a sorted list that is contained in another with everything before it is its beginning |
| C125 | `unravel_address`, `weave_address` | the bits in order are those at the mask positions and then the others (C19), a rearrangement of all positions without repetition; the rest follows from it bit by bit |

Nothing on the list was left out as not expressible.

## 5. Findings: where the code violates the property

For each of these there is a counterexample theorem, and a theorem that says for which inputs exactly the property holds. The
exceptions are C45, where a sufficient condition is proved (any two networks of the input are nested or disjoint, whatever
their masks, for example CIDR) together with a condition under which it fails (which is exact if no network arises in two ways), the equivalence to C47 and what
the result consists of for all masks (C88), and C13, which always fails.

| id | what happens | example |
|---|---|---|
| C06 | `sub_internal` (`addr.rs:276-291`) borrows only if the top halves are equal; if the top half is greater and the bottom half smaller, the result is too large by 2^64 | `C06_counterexample` |
| C07 | IPv6 `add_offset`/`subtract_offset` with `i32::MIN` negate it: panic in checked builds, endless mutual recursion otherwise | `C07_counterexample` |
| C10, C30 | an address whose display begins or ends with one elided group does not parse again | `C10_counterexample` |
| C13 | `to_full_string` returns the empty string: its loop runs over the length of the still empty result (`addr.rs:223`); with a loop over the chunks it would be right (`C13_only_the_bound`) | `C13_counterexample`, `C13_never` |
| C29 | `intersects` compares first and last addresses only: wrong for masks with gaps | `C29_counterexample` |
| C39 | `range_to_subnets` panics for ranges that end at the greatest address; the full range never ends in unchecked builds | `C39_counterexample` |
| C45, C47 | after a merge the minimized list is not searched again for covered networks: for masks with gaps the output can contain a network covered by another, and minimizing again changes it | `C45_counterexample`, `C47_counterexample` |
| C53 | a request larger than the network is served from addresses before the network and this is not reported if the end happens to lie in it | `C53_counterexample` |
| C54 | a split that would use exactly the last addresses of the address space is refused | `C54_counterexample` |
| C55 | when nothing is unused the command lists the last address of the network and the one after it as unused; for a network at the end of the address space it panics; for masks with gaps it lists addresses outside the network | `C55_counterexample`, `C55_counterexample_top` |
| C61 | without colours every fragment of a line is followed by a line break (`println!` instead of `print!`, `console.rs`) | `C61_counterexample` |
| C68 | the class label of a network with a short mask can name a class although no bit is highlighted | `C68_counterexample` |
| C82 | texts with a double colon at an end that stands for one group (`::2:3:4:5:6:7:8`) are rejected; the empty text, a lone colon at an end, plus signs and more than four digits are accepted; upper-case digits are accepted in addresses but not in networks | `C82_counterexample`, `C82_network` |
| C83 | a single zero group is displayed as `::` | `C83_counterexample` |
| C92 | with colours, the line `no hosts/net` of the display and the colour test have no line end of their own (`show_net.rs`, `main.rs`) | `C92_counterexample` |
| C93 | that last line stays in the buffer of standard output until the process ends, where an error is ignored: on a full disk it is missing although the status is 0 | `C93_counterexample` |
| C104 | the usage text says that derange takes two addresses or more (`main.rs:34`), that enumerate takes one network, that a subnet may be a wildcard, and that families cannot be mixed; but derange takes exactly two, enumerate takes any number, resize refuses a wildcard as target, and showing and enumerating accept both families | `C104_arguments_counterexample`, `C104_target_counterexample`, `C104_mixing_counterexample` |

### Seeded bugs

`seeded/gen_mutations.py` lists edits of the model that correspond to realistic mistakes; `seeded/run.py` applies each in a scratch
copy, rebuilds and records in `seeded/LOG.jsonl` which property theorems no longer check ("failed" means that the theorem or
something it depends on does). A few edits are equivalent to the original and are marked so. Where an edit made a claim false
without breaking its theorem, the theorem was tightened; see the field `theorems_tightened`.

`seeded/auto.py` makes small edits (operators, constants, texts, fields) at every line of the model, and stops the build at the first error.
Those that nothing noticed, and what became of them:

| Edit | Verdict |
|---|---|
| `Text.lean`: width and digits of `showHex4` | the function is only used by `to_full_string`, which returns the empty string; now noticed: `C13_only_the_bound` was added |
| `Messages.lean`: spaces in the usage text | now noticed: `C74_layout` was added |
| `Output.lean`: padding for a negative width | no caller has one; now noticed: C102 was added |
| `Parse.lean`: the version number of an address | now noticed: `C36_version` was added |
| `Minimize.lean`: the answer if there is no next network with the same mask | equivalent: then no network behind it in the sorted list has that mask |
| `Exec.lean`: another modulus for the wrapped difference | equivalent: both results are far too large for a prefix (see C112) |
| `ShowNet.lean`: width 1 for a single character | equivalent |
| `Addr.lean`, `Exec.lean`: another name for a bound variable; a helper that only the examples evaluate | no change of the model |

The same edits in the definitions under `Verif/Spec` (`auto.py gen … Spec`) test the words of the claims: a claim that can still be proved
after its words were changed says too little, or the change does not matter.  Survivors so far: the default of `byteStringBit` behind the end
of the bytes (all claims are about bits before it), the terminal's reading of the control sequences 90–97, which the program does not write, and
`F.group / 7` for `F.group / 8` in the binary column (groups have 8 or 16 digits, so it is the same).  Of the definitions in `Verif/Props`:
clauses of `UsageText`, which are now needed for `C104_synopses_unique`; the intended text of C13, which `C13_intended` and
`C13_intended_unique` now determine; a weaker form of `FieldsFor`; and an equivalent edit of `labelOf`, a helper of a proof.

## 6. Theorem index

The theorems of each property (namespace `Ripcalc`) and the axioms each depends on, as printed by `#print axioms`:
p = `propext`, c = `Classical.choice`, q = `Quot.sound`. Generated by `tools/gen_index.py`.

| id | status | theorems (axioms) |
|---|---|---|
| C01 | proved | `C01_ipv4_bytes` (pcq) |
| C02 | proved | `C02_ipv6_bytes` (pcq), `C02_ipv6_chunks` (pcq) |
| C03 | proved | `C03_order_v4` (pcq), `C03_order_v6` (pcq) |
| C04 | proved | `C04_ipv4_arithmetic` (pq) |
| C05 | proved | `C05_ipv6_addition` (pcq) |
| C06 | partial | `C06_counterexample` (pcq), `C06_ipv6_subtraction_partial` (pcq), `C06_ipv6_subtraction_error` (pcq), `C06_ipv6_offsets_partial` (pcq) |
| C07 | partial | `C07_counterexample` (pcq), `C07_ipv6_offsets_return_partial` (pcq) |
| C08 | proved | `C08_ipv4_round_trip` (pcq), `C08_ipv4_shape` (pcq), `C08_ipv4_injective` (pcq) |
| C09 | proved | `C09_ipv4_parser` (pcq), `C09_ipv4_parser_error` (pcq) |
| C10 | partial | `C10_counterexample` (pcq), `C10_ipv6_round_trip_partial` (pcq), `C10_ipv6_round_trip_common` (pcq) |
| C11 | proved | `C11_ipv6_parser_total` (pcq), `C11_ipv6_parser` (pcq), `C11_chunks_determine` (pcq) |
| C12 | proved | `C12_ipv6_display` (pcq), `C12_run_unique` (pq), `C12_ipv6_injective` (pcq) |
| C13 | partial | `C13_intended` (pq), `C13_intended_unique` (pcq), `C13_never` (pcq), `C13_only_the_bound` (pcq), `C13_full_string_is_empty` (pq), `C13_counterexample` (pq) |
| C14 | proved | `C14_bitwise` (pcq), `C14_counts` (p), `C14_families` (pcq), `C14_bitwise_families` (pcq), `C14_counts_families` (pcq) |
| C15 | proved | `C15_prefix_mask_prefix` (pcq) |
| C16 | proved | `C16_prefix_detection` (pcq), `C16_prefix_detection_none` (pcq) |
| C17 | proved | `C17_bytes_to_bits` (pcq), `C17_bits_to_bytes` (pcq) |
| C18 | proved | `C18_unravel_weave` (pcq), `C18_unravel_weave_families` (pcq) |
| C19 | proved | `C19_unravel_bits` (pcq), `C19_unravel_mask` (pcq), `C19_unravel_bits_families` (pcq), `C19_unravel_mask_families` (pcq) |
| C20 | proved | `C20_new_with_mask_families` (pcq), `C20_new_with_prefix_families` (pcq), `C20_new_with_mask` (pcq), `C20_new_with_prefix` (pcq) |
| C21 | proved | `C21_mask_strict_families` (pcq), `C21_prefix_strict_families` (pcq), `C21_mask_strict` (pcq), `C21_prefix_strict` (pcq) |
| C22 | proved | `C22_constructors_agree_families` (pcq), `C22_constructors_agree` (pcq) |
| C23 | proved | `C23_contains_families` (pcq), `C23_same_mask_families` (pcq), `C23_contains` (pcq), `C23_same_mask` (p) |
| C24 | proved | `C24_address_count_families` (pcq), `C24_host_count_families` (pcq), `C24_address_count` (pcq), `C24_host_count` (pcq) |
| C25 | proved | `C25_broadcast_families` (pcq), `C25_broadcast` (pcq) |
| C26 | proved | `C26_first_host_families` (pcq), `C26_host_pair_families` (pcq), `C26_last_host_families` (pcq), `C26_first_host` (pcq), `C26_last_host` (pcq), `C26_host_pair` (pcq) |
| C27 | proved | `C27_next_subnet_families` (pcq), `C27_next_subnet` (pcq) |
| C28 | proved | `C28_antisymm_families` (pcq), `C28_superset_families` (pcq), `C28_superset` (pcq), `C28_antisymm` (pcq) |
| C29 | partial | `C29_intersects_cidr_families` (pcq), `C29_intersects_families_partial` (pcq), `C29_counterexample` (pcq), `C29_intersects_partial` (pcq), `C29_intersects_cidr` (pcq) |
| C30 | partial | `C30_ipv4` (pcq), `C30_ipv6_partial` (pcq), `C30_ipv6_short_prefix` (pcq), `C30_counterexample` (pcq) |
| C31 | proved | `C31_net_unique_families` (pcq), `C31_recognition` (pcq), `C31_regexes` (pq), `C31_meaning_ipv4` (pcq), `C31_meaning_ipv6` (pcq), `C31_net_unique` (pcq) |
| C32 | proved | `C32_mask_wildcard_ipv4` (pcq), `C32_prefix_ipv4` (pcq), `C32_mask_wildcard_ipv6` (pcq), `C32_prefix_ipv6` (pcq) |
| C33 | proved | `C33_parsed_good` (pcq) |
| C34 | proved | `C34_prefix_syntax` (pcq), `C34_error` (pcq), `C34_resize_ipv4` (pcq), `C34_resize_ipv6` (pcq), `C34_resize_target` (pcq) |
| C35 | proved | `C35_same_family` (pcq), `C35_lists` (pcq) |
| C36 | proved | `C36_parse_addr` (pcq), `C36_parse_subnet` (pcq), `C36_version` (pcq) |
| C37 | proved | `C37_iterator` (pcq), `C37_enumerate` (pcq), `C37_enumerate_families` (pcq), `C37_iterator_families` (pcq) |
| C38 | proved | `C38_enumerate` (pcq), `C38_output_unique` (pcq), `C38_usage` (pcq) |
| C39 | partial | `C39_range_partial` (pcq), `C39_top_panics` (pcq), `C39_whole_space` (pcq), `C39_returns_iff` (pcq), `C39_command_v4` (pcq), `C39_command_v6` (pcq), `C39_counterexample` (pcq), `C39_range_families_partial` (pcq), `C39_returns_iff_families` (pcq), `C39_top_panics_families` (pcq), `C39_whole_space_families` (pcq) |
| C40 | proved | `C40_minimal` (pcq), `C40_minimal_families` (pcq) |
| C41 | proved | `C41_symmetric` (pcq), `C41_symmetric_families` (pcq) |
| C42 | proved | `C42_same_addresses_families` (pcq), `C42_same_addresses` (pcq) |
| C43 | proved | `C43_set_function_families` (pcq), `C43_set_function` (pcq) |
| C44 | proved | `C44_sorted_families` (pcq), `C44_sorted` (pcq) |
| C45 | partial | `C45_nothing_to_merge` (pcq), `C45_nothing_to_merge_families` (pcq), `C45_cidr_families_partial` (pcq), `C45_input_families_partial` (pcq), `C45_no_inclusion_families_partial` (pcq), `C45_no_inclusion_partial` (pcq), `C45_cidr_partial` (pcq), `C45_input_partial` (pcq), `C45_counterexample` (pcq), `C45_nested_partial` (pcq), `C45_fails_partial` (pcq), `C45_exact_partial` (pcq), `C45_fails_families_partial` (pcq), `C45_exact_families_partial` (pcq), `C45_nested_families_partial` (pcq) |
| C46 | proved | `C46_chain_minimal_families` (pcq), `C46_cidr_minimal_families` (pcq), `C46_chain_minimal` (pcq), `C46_cidr_minimal` (pcq) |
| C47 | partial | `C47_fixed_points` (pcq), `C47_fixed_points_families` (pcq), `C47_cidr_families_partial` (pcq), `C47_idempotent_families_partial` (pcq), `C47_iff_families` (pcq), `C47_iff` (pcq), `C47_idempotent_partial` (pcq), `C47_cidr_partial` (pcq), `C47_counterexample` (pcq), `C47_nested_partial` (pcq), `C47_nested_families_partial` (pcq) |
| C48 | proved | `C48_subnets_families` (pcq), `C48_subnets` (pcq) |
| C49 | proved | `C49_same_families` (pcq), `C49_supernet_families` (pcq), `C49_supernet` (pcq), `C49_same` (pcq) |
| C50 | proved | `C50_back_families` (pcq), `C50_count_families` (pcq), `C50_larger_families` (pcq), `C50_result_families` (pcq), `C50_result` (pcq), `C50_count` (pcq), `C50_back` (pcq), `C50_larger` (pcq) |
| C51 | proved | `C51_host_count_families` (pcq), `C51_requests_families` (pcq), `C51_requests` (pcq), `C51_host_count` (pcq) |
| C52 | proved | `C52_layout_families` (pcq), `C52_layout` (pcq), `C52_exactly` (pcq), `C52_unique` (pcq), `C52_exactly_families` (pcq), `C52_unique_families` (pcq) |
| C53 | partial | `C53_contained_partial_v4` (pcq), `C53_contained_partial_v6` (pcq), `C53_counterexample` (pcq), `C53_exactly_when` (pcq), `C53_exactly_when_cidr` (pcq), `C53_command_exact_v4` (pcq), `C53_command_exact_v6` (pcq), `C53_exactly_when_families` (pcq), `C53_exactly_when_cidr_families` (pcq) |
| C54 | partial | `C54_exact_families` (pcq), `C54_fits_families_partial` (pcq), `C54_top_fails_families` (pcq), `C54_exact` (pcq), `C54_fits_partial` (pcq), `C54_top_fails` (pcq), `C54_counterexample` (pcq), `C54_refused` (pcq), `C54_refused_families` (pcq) |
| C55 | partial | `C55_unused_partial_v4` (pcq), `C55_full_v4` (pcq), `C55_top_panics_v4` (pcq), `C55_unused_partial_v6` (pcq), `C55_full_v6` (pcq), `C55_top_panics_v6` (pcq), `C55_counterexample` (pcq), `C55_counterexample_top` (pcq), `C55_exactly_when` (pcq), `C55_command_exact_v4` (pcq), `C55_command_exact_v6` (pcq), `C55_exactly_when_families` (pcq) |
| C56 | proved | `C56_dispatch` (pcq), `C56_usage` (pcq), `C56_exit_codes` (pcq) |
| C57 | proved | `C57_texts` (pcq), `C57_malformed` (pcq) |
| C58 | proved | `C58_any` (pcq), `C58_blocks` (pcq), `C58_error` (pcq), `C58_total` (pcq) |
| C59 | proved | `C59_rows_v4` (pcq), `C59_rows_v6` (pcq), `C59_binary_v4` (pcq), `C59_binary_v6` (pcq), `C59_any_v4` (pcq), `C59_any_v6` (pcq) |
| C60 | proved | `C60_class_label` (pcq), `C60_any` (pcq), `C60_printed` (pcq) |
| C61 | partial | `C61_plain_modes` (pcq), `C61_uncolored_partial` (pcq), `C61_counterexample` (pcq) |
| C62 | proved | `C62_block_v4` (pcq), `C62_block_v6` (pcq), `C62_any_v4` (pcq), `C62_any_v6` (pcq) |
| C63 | proved | `C63_minimize_v4` (pcq), `C63_minimize_v6` (pcq), `C63_minimize` (pcq) |
| C64 | proved | `C64_resize_v4` (pcq), `C64_any_v4` (pcq), `C64_resize_v6` (pcq), `C64_any_v6` (pcq), `C64_errors` (pcq), `C64_total` (pcq) |
| C65 | proved | `C65_split_v4` (pcq), `C65_any_v4` (pcq), `C65_split_v6` (pcq), `C65_any_v6` (pcq), `C65_errors` (pcq) |
| C66 | proved | `C66_returns` (pcq), `C66_derange` (pcq), `C66_split` (pcq) |
| C67 | proved | `C67_mask_colors` (pcq), `C67_override` (pcq) |
| C68 | partial | `C68_class_colors_sound` (pcq), `C68_class_colors_partial` (pcq), `C68_exactly_when` (pcq), `C68_counterexample` (pcq) |
| C69 | proved | `C69_display_v4` (pcq), `C69_display_v6` (pcq) |
| C70 | proved | `C70_number_error` (pcq), `C70_number_total` (pcq), `C70_digits_overflow` (pcq), `C70_ipv4_error` (pcq), `C70_ipv4_total` (pcq) |
| C71 | proved | `C71_ipv6_error` (pcq), `C71_ipv6_total` (pcq) |
| C72 | proved | `C72_netspec_error` (pcq), `C72_netspec_total` (pcq), `C72_prefix_overflow` (pcq) |
| C73 | proved | `C73_addr_error` (pcq), `C73_subnet_error` (pcq), `C73_list_error` (pcq) |
| C74 | proved | `C74_message` (pcq), `C74_usage` (none), `C74_layout` (pcq), `C74_stderr` (pcq) |
| C75 | proved | `C75_quote` (pcq), `C75_message` (pcq), `C75_stderr` (pcq) |
| C76 | proved | `C76_message` (pcq), `C76_failure` (pcq), `C76_success` (pcq) |
| C77 | proved | `C77_printable` (pcq), `C77_characters` (pcq) |
| C78 | proved | `C78_terminal` (pcq), `C78_prefix` (pcq), `C78_distinct` (none), `C78_palette` (none), `C78_uncolored` (pcq) |
| C79 | proved | `C79_count` (pq), `C79_unique` (pq), `C79_counts` (pq), `C79_every` (pq) |
| C80 | proved | `C80_network_texts` (pcq), `C80_show` (pcq), `C80_minimize` (pcq), `C80_derange` (pcq), `C80_resize` (pcq), `C80_split` (pcq), `C80_enumerate` (pcq), `C80_rest` (pcq) |
| C81 | proved | `C81_v4` (pcq), `C81_v6` (pcq), `C81_address` (pcq), `C81_network` (pcq), `C81_subnet` (pcq), `C81_count` (p), `C81_show` (pcq), `C81_minimize` (pcq), `C81_derange` (pcq), `C81_resize` (pcq), `C81_split` (pcq), `C81_enumerate` (pcq), `C81_usage` (pcq), `C81_otherwise` (pcq) |
| C82 | partial | `C82_reads_partial` (pcq), `C82_strict_partial` (pcq), `C82_counterexample` (pcq), `C82_unambiguous` (pcq), `C82_network` (pcq) |
| C83 | partial | `C83_display_partial` (pcq), `C83_canonical_read` (pcq), `C83_counterexample` (pcq) |
| C84 | proved | `C84_addresses_only` (pcq), `C84_characterised` (pcq), `C84_nothing_to_merge` (pcq), `C84_single` (pcq), `C84_addresses_only_families` (pcq), `C84_characterised_families` (pcq), `C84_nothing_to_merge_families` (pcq), `C84_single_families` (pcq) |
| C85 | proved | `C85_resize_minimize` (pcq), `C85_resize_back` (pcq), `C85_derange_network` (pcq), `C85_minimize_derange` (pcq), `C85_derange_minimal` (pcq), `C85_derange_enumerate` (pcq), `C85_enumerate_minimize` (pcq), `C85_split_minimize` (pcq), `C85_derange_then_minimize_v4` (pcq), `C85_derange_then_minimize_v6` (pcq), `C85_minimize_twice_v4` (pcq), `C85_derange_then_enumerate_v4` (pcq), `C85_network_then_derange_v4` (pcq), `C85_resize_minimize_families` (pcq), `C85_resize_back_families` (pcq), `C85_derange_network_families` (pcq), `C85_minimize_derange_families` (pcq), `C85_derange_minimal_families` (pcq), `C85_derange_enumerate_families` (pcq), `C85_enumerate_minimize_families` (pcq), `C85_split_minimize_families` (pcq) |
| C86 | proved | `C86_exactly` (pcq), `C86_middle` (pcq), `C86_exactly_families` (pcq), `C86_middle_families` (pcq), `C86_at_most` (pcq), `C86_attained` (pcq), `C86_families` (pcq) |
| C87 | proved | `C87_order` (none), `C87_shown` (pcq), `C87_plain` (pcq) |
| C88 | proved | `C88_steps` (pcq), `C88_steps_families` (pcq), `C88_sound` (pcq), `C88_complete` (pcq), `C88_exact` (pcq), `C88_chain` (pcq), `C88_sound_families` (pcq), `C88_complete_families` (pcq), `C88_exact_families` (pcq), `C88_chain_families` (pcq), `C88_two_ways` (pcq) |
| C89 | proved | `C89_text` (pcq), `C89_not_text` (pcq), `C89_runs` (pcq), `C89_status` (pcq), `C89_panics` (pcq), `C89_endless` (pcq), `C89_stdout` (pcq), `C89_success` (pcq), `C89_failure` (pcq) |
| C90 | proved | `C90_grammar` (pcq), `C90_unambiguous` (pcq), `C90_patterns` (pcq), `C90_unrecognized` (pcq) |
| C91 | proved | `C91_loop` (pcq), `C91_minimize` (pcq), `C91_range` (pcq), `C91_range_at_most` (pcq), `C91_grow` (pcq), `C91_enumerate` (pcq), `C91_enumerate_print` (pcq), `C91_resize` (pcq), `C91_minimize_families` (pcq), `C91_range_families` (pcq), `C91_range_numbers` (pcq), `C91_grow_families` (pcq), `C91_enumerate_families` (pcq), `C91_enumerate_print_families` (pcq), `C91_resize_families` (pcq) |
| C92 | partial | `C92_lines_partial` (pcq), `C92_plain` (pcq), `C92_counterexample` (pcq) |
| C93 | partial | `C93_prefix` (pcq), `C93_reliable` (pcq), `C93_complete` (pcq), `C93_noticed_partial` (pcq), `C93_limited` (pcq), `C93_stdout` (pcq), `C93_stderr` (pcq), `C93_silent` (pcq), `C93_color_test` (pcq), `C93_counterexample` (pcq) |
| C94 | proved | `C94_columns_v4` (pcq), `C94_columns_v6` (pcq), `C94_show` (pcq), `C94_resize` (pcq), `C94_split` (pcq) |
| C95 | proved | `C95_read_back` (pcq), `C95_read_stdout` (pcq), `C95_read_bytes` (pcq), `C95_resize_v4` (pcq), `C95_resize_v6` (pcq), `C95_resize_families` (pcq), `C95_split_v4` (pcq), `C95_split_v6` (pcq) |
| C96 | proved | `C96_minimize_v4` (pcq), `C96_minimize_v6` (pcq), `C96_minimize_families` (pcq), `C96_derange_v4` (pcq), `C96_derange_v6` (pcq), `C96_derange_families` (pcq), `C96_enumerate` (pcq), `C96_listed` (pcq), `C96_enumerate_one` (pcq) |
| C97 | proved | `C97_split_networks` (pcq), `C97_split_exact` (pcq), `C97_same` (pcq), `C97_visible` (pcq), `C97_exact` (pcq), `C97_split_networks_families` (pcq), `C97_split_exact_families` (pcq) |
| C98 | proved | `C98_split_v4` (pcq), `C98_split_v6` (pcq), `C98_before` (pcq), `C98_process` (pcq) |
| C99 | proved | `C99_unused_v4` (pcq), `C99_unused_v6` (pcq) |
| C100 | proved | `C100_program` (pcq), `C100_total` (pcq), `C100_determined` (pcq), `C100_process` (pcq), `C100_piped` (pcq), `C100_open` (pcq) |
| C101 | proved | `C101_prefix` (pcq), `C101_order` (pcq), `C101_complete` (pcq), `C101_noticed` (pcq), `C101_received` (pcq), `C101_limited` (pcq), `C101_apart` (pcq), `C101_enumerate` (pcq) |
| C102 | proved | `C102_bytes` (pq), `C102_write` (pq), `C102_unique` (pq) |
| C103 | proved | `C103_smaller` (pcq), `C103_larger` (pcq), `C103_between` (pcq), `C103_minimize` (pcq), `C103_ranges` (pcq), `C103_smaller_families` (pcq), `C103_larger_families` (pcq), `C103_between_families` (pcq), `C103_minimize_families` (pcq), `C103_ranges_families` (pcq), `C103_minimize_portions_v4` (pcq), `C103_derange_portions_v4` (pcq), `C103_minimize_portions_v6` (pcq), `C103_derange_portions_v6` (pcq) |
| C104 | partial | `C104_arguments_partial` (pcq), `C104_arguments_counterexample` (pcq), `C104_target_partial` (pcq), `C104_target_counterexample` (pcq), `C104_mixing_partial` (pcq), `C104_mixing_counterexample` (pcq), `C104_synopses_unique` (pcq) |
| C105 | proved | `C105_inside` (pcq), `C105_chain_within` (pcq), `C105_chain_greatest` (pcq), `C105_cidr_within` (pcq), `C105_cidr_greatest` (pcq), `C105_cidr_monotone` (pcq), `C105_range_within` (pcq), `C105_range_greatest` (pcq), `C105_range_monotone` (pcq), `C105_inside_families` (pcq), `C105_chain_within_families` (pcq), `C105_chain_greatest_families` (pcq), `C105_cidr_within_families` (pcq), `C105_cidr_greatest_families` (pcq), `C105_cidr_monotone_families` (pcq), `C105_range_within_families` (pcq), `C105_range_greatest_families` (pcq), `C105_range_monotone_families` (pcq) |
| C106 | proved | `C106_less` (pcq), `C106_more` (pcq), `C106_contained` (pcq), `C106_command_v4` (pcq), `C106_command_v6` (pcq), `C106_less_families` (pcq), `C106_more_families` (pcq), `C106_contained_families` (pcq), `C106_gaps` (pcq) |
| C107 | proved | `C107_room` (pcq), `C107_exactly` (pcq), `C107_compact` (pcq), `C107_command_v4` (pcq), `C107_command_v6` (pcq), `C107_room_families` (pcq), `C107_exactly_families` (pcq), `C107_compact_families` (pcq), `C107_gaps` (pcq) |
| C108 | proved | `C108_minimize` (pcq), `C108_derange` (pcq), `C108_enumerate` (pcq), `C108_resize` (pcq), `C108_split` (pcq), `C108_network` (pcq), `C108_ipv4_in_ipv6` (pcq), `C108_network_families` (pcq), `C108_minimize_families` (pcq), `C108_derange_families` (pcq), `C108_enumerate_families` (pcq), `C108_resize_families` (pcq), `C108_split_families` (pcq), `C108_end_differs` (pcq) |
| C109 | proved | `C109_enumerate` (pcq), `C109_show` (pcq), `C109_each_enumerated` (pcq), `C109_order` (pcq), `C109_words` (pcq), `C109_each_shown` (pcq) |
| C110 | proved | `C110_show` (pcq), `C110_enumerate` (pcq), `C110_minimize` (pcq), `C110_derange` (pcq), `C110_resize` (pcq), `C110_split` (pcq), `C110_syntax_ipv4` (pcq), `C110_syntax_ipv6` (pcq), `C110_prefix_only` (pq), `C110_lopsided` (pcq), `C110_show_address` (pcq) |
| C111 | proved | `C111_one_sided` (pcq), `C111_twice` (pcq), `C111_worst` (pcq), `C111_minimize` (pcq), `C111_one_sided_families` (pcq), `C111_twice_families` (pcq), `C111_worst_families` (pcq), `C111_minimize_families` (pcq) |
| C112 | proved | `C112_range` (pcq), `C112_range_families` (pcq), `C112_word_size` (pcq), `C112_same_64` (pcq), `C112_differs` (pcq), `C112_stdout` (pcq) |
| C113 | proved | `C113_networks` (pcq), `C113_addresses` (pcq), `C113_masks` (pcq), `C113_counts` (pcq), `C113_accepted` (pcq), `C113_foreign` (pcq) |
| C114 | proved | `C114_shape` (pcq), `C114_up_and_down` (pcq), `C114_results` (pcq), `C114_shape_families` (pcq), `C114_up_and_down_families` (pcq), `C114_results_families` (pcq) |
| C115 | proved | `C115_added` (pcq), `C115_disappear` (pcq), `C115_count` (pcq), `C115_nothing_new` (pcq), `C115_together` (pcq), `C115_added_families` (pcq), `C115_disappear_families` (pcq), `C115_count_families` (pcq), `C115_nothing_new_families` (pcq), `C115_together_families` (pcq) |
| C116 | proved | `C116_network` (pcq), `C116_only` (pcq), `C116_relations` (pcq), `C116_minimize` (pcq), `C116_minimize_networks` (pcq), `C116_resize` (pcq), `C116_enumerate` (pcq), `C116_range` (pcq), `C116_xor` (pq), `C116_mirror` (pcq), `C116_mirror_range` (pcq), `C116_network_families` (pcq), `C116_only_families` (pcq), `C116_relations_families` (pcq), `C116_minimize_families` (pcq), `C116_minimize_networks_families` (pcq), `C116_resize_families` (pcq), `C116_enumerate_families` (pcq), `C116_range_families` (pcq), `C116_xor_families` (pcq), `C116_mirror_families` (pcq), `C116_mirror_range_families` (pcq) |
| C117 | proved | `C117_colors` (pcq), `C117_plain` (pcq), `C117_color_test` (pcq), `C117_usage` (none), `C117_attained` (pcq) |
| C118 | proved | `C118_sizes` (pcq), `C118_only` (pcq), `C118_order` (pcq), `C118_program` (pcq), `C118_sizes_families` (pcq), `C118_only_families` (pcq), `C118_order_families` (pcq) |
| C119 | proved | `C119_minimize` (pcq), `C119_derange` (pcq), `C119_enumerate` (pcq), `C119_show` (pcq), `C119_resize` (pcq), `C119_split` (pcq) |
| C120 | proved | `C120_minimize` (pcq), `C120_fewest` (pcq), `C120_derange` (pcq), `C120_converted` (pcq), `C120_minimize_families` (pcq), `C120_fewest_families` (pcq), `C120_derange_families` (pcq), `C120_converted_families` (pcq) |
| C121 | proved | `C121_displayed` (pcq), `C121_parts` (pcq), `C121_pieces` (pcq), `C121_parts_families` (pcq), `C121_pieces_families` (pcq) |
| C122 | proved | `C122_ipv4` (pq), `C122_ipv6` (pq), `C122_addresses` (pq), `C122_masks` (pq), `C122_counts` (pq), `C122_show` (pcq), `C122_lists` (pcq), `C122_derange` (pcq), `C122_resize` (pcq), `C122_split` (pcq), `C122_lengths` (p) |
| C123 | proved | `C123_order` (pcq), `C123_before` (pcq), `C123_cidr_order` (pcq), `C123_intersects` (pcq), `C123_between` (pcq), `C123_block` (pcq), `C123_above` (pcq), `C123_common` (pcq), `C123_resize` (pcq), `C123_minimize` (pcq), `C123_order_families` (pcq), `C123_before_families` (pcq), `C123_cidr_order_families` (pcq), `C123_intersects_families` (pcq), `C123_between_families` (pcq), `C123_block_families` (pcq), `C123_above_families` (pcq), `C123_common_families` (pcq), `C123_resize_families` (pcq), `C123_minimize_families` (pcq) |
| C124 | proved | `C124_equal` (pcq), `C124_all` (pcq), `C124_top` (pcq), `C124_each` (pcq), `C124_equal_families` (pcq), `C124_all_families` (pcq), `C124_top_families` (pcq), `C124_each_families` (pcq) |
| C125 | proved | `C125_permutation` (pcq), `C125_bitwise` (pcq), `C125_ones` (pcq), `C125_network` (pcq), `C125_order` (pcq), `C125_permutation_families` (pcq), `C125_bitwise_families` (pcq), `C125_ones_families` (pcq), `C125_network_families` (pcq), `C125_order_families` (pcq) |

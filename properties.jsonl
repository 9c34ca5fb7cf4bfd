{"id": "C01", "title": "IPv4 byte serialisation is a big-endian bijection", "statement": "to_bytes of an IPv4 address yields exactly 4 bytes, most significant first, whose base-256 value is the address value; from_bytes inverts it in both directions and answers None exactly for slices whose length is not 4.", "quantifier": "every IPv4 address and every byte slice of every length", "why_tests_cant": "2^32 addresses and unboundedly many slices; tests sample five of each", "anchors": ["src/addr.rs: Ipv4Address::to_bytes", "src/addr.rs: Ipv4Address::from_bytes"]}
{"id": "C02", "title": "IPv6 byte and chunk serialisation are big-endian bijections", "statement": "to_bytes yields 16 bytes and to_chunks yields 8 sixteen-bit chunks, most significant first, whose positional value is the 128-bit address; from_bytes and from_chunks invert them in both directions and answer None exactly on a wrong length.", "quantifier": "every IPv6 address, every byte slice and every chunk slice of every length", "why_tests_cant": "2^128 addresses", "anchors": ["src/addr.rs: Ipv6Address::to_bytes", "src/addr.rs: Ipv6Address::from_bytes", "src/addr.rs: Ipv6Address::to_chunks", "src/addr.rs: Ipv6Address::from_chunks"]}
{"id": "C03", "title": "Address order is numeric order", "statement": "The order used to compare addresses (derived Ord) is the order of their numeric values, for IPv4 and for IPv6 (which is stored as two halves).", "quantifier": "every pair of addresses of one family", "why_tests_cant": "2^256 pairs", "anchors": ["src/addr.rs: Ipv4Address (derive Ord)", "src/addr.rs: Ipv6Address (derive Ord)"]}
{"id": "C04", "title": "IPv4 address arithmetic is exact or None", "statement": "add_addr, subtract_addr, add_offset and subtract_offset on IPv4 return the exact integer sum or difference when it lies in 0..2^32-1 and None in every other case; they never wrap and never panic.", "quantifier": "every pair of IPv4 addresses, and every IPv4 address with every i32 offset", "why_tests_cant": "the failure points are at the carries and borders of a 2^64 input space", "anchors": ["src/addr.rs: Ipv4Address::add_internal", "src/addr.rs: Ipv4Address::add_addr", "src/addr.rs: Ipv4Address::subtract_addr", "src/addr.rs: Ipv4Address::add_offset", "src/addr.rs: Ipv4Address::subtract_offset"]}
{"id": "C05", "title": "IPv6 addition is exact or None", "statement": "add_addr on IPv6, and add_offset with a non-negative offset, return the exact sum when it is below 2^128 (carrying between the two halves) and None otherwise.", "quantifier": "every pair of IPv6 addresses; every IPv6 address with every non-negative i32", "why_tests_cant": "carry between the halves and overflow of either half are rare in a 2^256 input space", "anchors": ["src/addr.rs: Ipv6Address::add_internal", "src/addr.rs: Ipv6Address::add_addr", "src/addr.rs: Ipv6Address::add_offset"]}
{"id": "C06", "title": "IPv6 subtraction is exact or None", "statement": "subtract_addr and subtract_offset on IPv6 return the exact difference when it is not negative, borrowing from the top half when needed, and None otherwise.", "quantifier": "every pair of IPv6 addresses; every IPv6 address with every i32 offset other than the minimum", "why_tests_cant": "a wrong borrow only shows when the top halves differ and the bottom half underflows", "anchors": ["src/addr.rs: Ipv6Address::sub_internal", "src/addr.rs: Ipv6Address::subtract_addr", "src/addr.rs: Ipv6Address::subtract_offset"]}
{"id": "C07", "title": "IPv6 offsets accept every i32", "statement": "add_offset and subtract_offset on IPv6 return normally (Some or None) for every i32 offset, in checked and in unchecked builds.", "quantifier": "every IPv6 address, every i32 offset, both overflow-check settings", "why_tests_cant": "one offset out of 2^32, and non-termination cannot be observed by a test", "anchors": ["src/addr.rs: Ipv6Address::add_offset", "src/addr.rs: Ipv6Address::subtract_offset"]}
{"id": "C08", "title": "IPv4 text round-trips", "statement": "Parsing the displayed text of an IPv4 address returns that address; the text is four decimal numbers without leading zeros separated by dots, and two different addresses never display the same.", "quantifier": "every IPv4 address", "why_tests_cant": "2^32 addresses", "anchors": ["src/addr.rs: impl Display for Ipv4Address", "src/addr.rs: impl FromStr for Ipv4Address"]}
{"id": "C09", "title": "IPv4 parser accepts exactly dotted quads", "statement": "Parsing a string as IPv4 succeeds if and only if the string is four dot-separated non-empty decimal numbers (leading zeros and one leading plus sign allowed) each at most 255; the result has those numbers as its bytes. Otherwise an error is returned; the parser never panics.", "quantifier": "every string", "why_tests_cant": "unboundedly many strings", "anchors": ["src/addr.rs: impl FromStr for Ipv4Address"]}
{"id": "C10", "title": "IPv6 text round-trips", "statement": "Parsing the displayed text of an IPv6 address returns that address.", "quantifier": "every IPv6 address", "why_tests_cant": "2^128 addresses; the failing shapes are single zero groups at either end", "anchors": ["src/addr.rs: impl Display for Ipv6Address", "src/addr.rs: impl FromStr for Ipv6Address"]}
{"id": "C11", "title": "IPv6 parser meaning", "statement": "Parsing a string as IPv6 never panics; it succeeds exactly on eight colon-separated hexadecimal groups or on a shorter list with one empty group standing for the missing zero groups (after a leading or trailing colon is completed with a zero), each group at most ffff, and the result has exactly those groups as its chunks.", "quantifier": "every string", "why_tests_cant": "unboundedly many strings", "anchors": ["src/addr.rs: impl FromStr for Ipv6Address"]}
{"id": "C12", "title": "IPv6 display is canonical", "statement": "The displayed IPv6 text writes each chunk in lower-case hexadecimal without leading zeros and replaces exactly the first of the longest runs of zero chunks (if any chunk is zero) by a double colon; the text determines the address.", "quantifier": "every IPv6 address", "why_tests_cant": "256 zero patterns times 2^128 values", "anchors": ["src/addr.rs: impl Display for Ipv6Address"]}
{"id": "C13", "title": "Full IPv6 text is eight groups of four digits", "statement": "to_full_string of an IPv6 address is its eight chunks, each as four hexadecimal digits, joined by colons.", "quantifier": "every IPv6 address", "why_tests_cant": "no test exists; one address suffices to refute, all are needed to confirm", "anchors": ["src/addr.rs: Ipv6Address::to_full_string"]}
{"id": "C14", "title": "Bitwise operators act on every bit", "statement": "Bitwise and, or, xor and bitwise_negate on addresses act on each of the 32 or 128 bits independently; count_ones and count_zeros count the one and zero bits and add up to the width.", "quantifier": "every address or pair of addresses of one family, every bit position", "why_tests_cant": "bit positions times 2^256 operands", "anchors": ["src/addr.rs: BitAnd/BitOr/BitXor impls", "src/addr.rs: bitwise_negate", "src/addr.rs: count_ones", "src/addr.rs: count_zeros"]}
{"id": "C15", "title": "Prefix to mask to prefix round-trips", "statement": "Converting a prefix length not larger than the number of mask bits into mask bytes and back returns the prefix; a larger prefix gives the all-ones mask; the result always has the requested number of bytes.", "quantifier": "every prefix length and every byte count", "why_tests_cant": "unbounded lengths; tests cover 33 prefixes at 4 bytes", "anchors": ["src/cidr.rs: subnet_mask_bytes_from_prefix", "src/cidr.rs: prefix_from_subnet_mask_bytes"]}
{"id": "C16", "title": "Prefix detection recognises exactly contiguous masks", "statement": "prefix_from_subnet_mask_bytes answers Some(p) if and only if the mask, read bit by bit from the most significant, is p ones followed only by zeros; it answers None for every other mask.", "quantifier": "every byte string of every length", "why_tests_cant": "256^n masks, decided by a 256-entry table", "anchors": ["src/cidr.rs: prefix_from_subnet_mask_bytes", "src/cidr.rs: SUBNET_MASK_BYTE_TO_PREFIX"]}
{"id": "C17", "title": "Bits and bytes convert losslessly", "statement": "bytes_to_bits gives 8 bits per byte, most significant first; bits_to_bytes inverts it, and on a bit string of any length pads with zeros up to a byte boundary; bytes_to_binary writes the same bits as characters.", "quantifier": "every byte string and every bit string", "why_tests_cant": "unbounded lengths", "anchors": ["src/bit_manip.rs: bytes_to_bits", "src/bit_manip.rs: bits_to_bytes", "src/bit_manip.rs: bytes_to_binary"]}
{"id": "C18", "title": "Unravel and weave are inverse for every mask", "statement": "For any subnet mask, however interleaved, weave_address inverts unravel_address and unravel_address inverts weave_address; neither panics.", "quantifier": "every address and every mask of both families", "why_tests_cant": "2^64 (IPv4) or 2^256 (IPv6) pairs", "anchors": ["src/bit_manip.rs: unravel_address", "src/bit_manip.rs: weave_address"]}
{"id": "C19", "title": "Unravel moves network bits to the front and keeps order", "statement": "Unraveling places the network bits (mask one) first in their original order, followed by the host bits in their original order; the unraveled mask is the contiguous mask with the same number of ones.", "quantifier": "every address and every mask", "why_tests_cant": "2^256 pairs", "anchors": ["src/bit_manip.rs: unravel_address"]}
{"id": "C20", "title": "Building a network keeps the address in it", "statement": "new_with_mask and new_with_prefix return a network that contains the given address, whose base is the smallest address of the network, and whose mask is the given mask (or the contiguous mask with that many ones, capped at the address width).", "quantifier": "every address with every mask or prefix length", "why_tests_cant": "2^256 pairs", "anchors": ["src/net.rs: new_with_mask", "src/net.rs: new_with_prefix"]}
{"id": "C21", "title": "Strict constructors accept exactly base addresses", "statement": "new_with_mask_strict and new_with_prefix_strict return Some exactly when every host bit of the address is zero, and then the same network as the lenient constructors.", "quantifier": "every address with every mask or prefix length", "why_tests_cant": "2^256 pairs", "anchors": ["src/net.rs: new_with_mask_strict", "src/net.rs: new_with_prefix_strict"]}
{"id": "C22", "title": "Prefix and mask constructors agree", "statement": "Building a network from prefix p (at most the address width) and from the mask with p leading ones gives equal networks; cidr_prefix is Some(p) exactly when the mask is p ones followed by zeros.", "quantifier": "every address, every prefix within the width, every mask", "why_tests_cant": "all masks must be covered, including interleaved ones", "anchors": ["src/net.rs: new_with_mask", "src/net.rs: new_with_prefix", "src/net.rs: cidr_prefix"]}
{"id": "C23", "title": "contains is bitwise membership", "statement": "contains answers true exactly for the addresses that agree with the base address on every network bit; networks with the same mask are equal or share no address.", "quantifier": "every network built by a constructor, every address", "why_tests_cant": "2^384 combinations", "anchors": ["src/net.rs: contains"]}
{"id": "C24", "title": "address_count is the number of contained addresses", "statement": "address_count equals the number of addresses the network contains, and host_count is that number minus two.", "quantifier": "every network of both families, lopsided masks included", "why_tests_cant": "the count reaches 2^128, so it cannot be checked by enumeration", "anchors": ["src/net.rs: address_count", "src/net.rs: host_count"]}
{"id": "C25", "title": "broadcast and last address are the greatest member", "statement": "broadcast_addr is the greatest address contained in the network, and is None exactly when the network has one address; last_addr_of_subnet is always the greatest contained address; neither panics.", "quantifier": "every network of both families, lopsided masks included", "why_tests_cant": "all masks and all bases", "anchors": ["src/net.rs: broadcast_addr", "src/net.rs: last_addr_of_subnet"]}
{"id": "C26", "title": "Host range excludes exactly network and broadcast address", "statement": "first_host_addr and last_host_addr are the second smallest and the second greatest address of the network, present exactly when the network has at least four addresses; when first_host_addr is present so is last_host_addr.", "quantifier": "every network of both families, lopsided masks included", "why_tests_cant": "all masks and all bases; a mismatch would make show_net panic", "anchors": ["src/net.rs: first_host_addr", "src/net.rs: last_host_addr", "src/cmds/show_net.rs: output_network"]}
{"id": "C27", "title": "next_subnet_base_addr is the next base of the same mask", "statement": "next_subnet_base_addr is the smallest base address greater than this one among networks with the same mask, and None exactly when there is none; it never panics.", "quantifier": "every network of both families, lopsided masks included", "why_tests_cant": "all masks and all bases", "anchors": ["src/net.rs: next_subnet_base_addr"]}
{"id": "C28", "title": "is_superset_of and is_subset_of are set inclusion", "statement": "is_superset_of answers true if and only if every address of the other network is contained in this one; is_subset_of is its converse; equal inclusion both ways means the same base and mask.", "quantifier": "every pair of networks of one family, lopsided masks included", "why_tests_cant": "2^512 pairs", "anchors": ["src/net.rs: is_superset_of", "src/net.rs: is_subset_of"]}
{"id": "C29", "title": "intersects detects a common address", "statement": "intersects answers true if and only if some address is contained in both networks.", "quantifier": "every pair of networks of one family, lopsided masks included", "why_tests_cant": "2^512 pairs; the interesting ones are interleaved masks", "anchors": ["src/net.rs: intersects"]}
{"id": "C30", "title": "Displayed networks parse back", "statement": "Parsing the displayed text of a network yields that network, with its base address as the address part.", "quantifier": "every network obtained from parsing, both families", "why_tests_cant": "all bases and masks", "anchors": ["src/net.rs: impl Display for IpNetwork", "src/cmds/mod.rs: parse_netspec"]}
{"id": "C31", "title": "Network syntax is recognised exactly", "statement": "parse_netspec recognises exactly address/prefix, address/-prefix, address/mask and address/-mask, where the address is a dotted quad of digits or a word of lower-case hexadecimal digits and colons, and rejects every other string as unrecognised; it never panics.", "quantifier": "every string", "why_tests_cant": "unboundedly many strings", "anchors": ["src/cmds/mod.rs: parse_netspec", "src/cmds/mod.rs: IPV4_WITH_SUBNET_REGEX", "src/cmds/mod.rs: IPV4_WITH_CIDR_REGEX", "src/cmds/mod.rs: IPV6_WITH_SUBNET_REGEX", "src/cmds/mod.rs: IPV6_WITH_CIDR_REGEX"]}
{"id": "C32", "title": "Prefix, mask and wildcard syntax are equivalent", "statement": "address/p, address/m and address/-w parse to the same result when m is the mask with p leading ones and w its bitwise complement; address/-p means the prefix of the remaining bits.", "quantifier": "every address, every prefix in range, every mask, both families", "why_tests_cant": "all addresses, masks and spellings", "anchors": ["src/cmds/mod.rs: parse_netspec"]}
{"id": "C33", "title": "A parsed network contains its address and is well formed", "statement": "Whenever parse_netspec succeeds, the returned network contains the returned address, its base has no host bits, its prefix is within the address width, and the recorded prefix agrees with the mask.", "quantifier": "every string", "why_tests_cant": "unboundedly many strings", "anchors": ["src/cmds/mod.rs: parse_netspec"]}
{"id": "C34", "title": "Out-of-range prefixes are rejected", "statement": "A prefix above 32 (IPv4) or 128 (IPv6), however long its digits, never yields a network, neither in address/prefix syntax nor as a resize target.", "quantifier": "every address and every digit string", "why_tests_cant": "unboundedly many digit strings, including those overflowing the machine word", "anchors": ["src/cmds/mod.rs: parse_netspec", "src/cmds/resize.rs: resize"]}
{"id": "C35", "title": "Lists of networks never mix families", "statement": "parse_same_family_netspecs returns all parsed networks in input order when all are of one family, the mixed marker when all specifications up to the first of another family parse, the first parse error otherwise, and nothing for an empty list.", "quantifier": "every list of strings", "why_tests_cant": "unbounded lists", "anchors": ["src/cmds/mod.rs: parse_same_family_netspecs"]}
{"id": "C36", "title": "Single addresses are classified by their separator", "statement": "parse_addr reads a string with dots and no colons as IPv4, with colons and no dots as IPv6, and rejects every other string; parse_subnet reads a string with a colon as an IPv6 mask, with a dot as an IPv4 mask, otherwise as a prefix.", "quantifier": "every string", "why_tests_cant": "unboundedly many strings", "anchors": ["src/cmds/mod.rs: parse_addr", "src/cmds/mod.rs: parse_subnet"]}
{"id": "C37", "title": "Enumeration lists each member once in ascending order", "statement": "Enumerating a network yields exactly the addresses it contains, each once, in ascending numeric order, ends after address_count of them, and keeps answering end afterwards; it never panics, even at the top of the address space.", "quantifier": "every network of both families, lopsided masks included", "why_tests_cant": "networks with up to 2^128 addresses", "anchors": ["src/cmds/enumerate.rs: NetworkIter"]}
{"id": "C38", "title": "enumerate processes every argument", "statement": "ripcalc --enumerate prints the addresses of every network argument that parses, in argument order, one per line, reports every argument that does not parse, and exits 1 exactly if some argument does not parse (or none is given).", "quantifier": "every argument list", "why_tests_cant": "unbounded argument lists", "anchors": ["src/cmds/enumerate.rs: enumerate"]}
{"id": "C39", "title": "derange covers the range exactly", "statement": "Converting a range of addresses into networks terminates without panicking and returns CIDR networks, in ascending order and pairwise disjoint, that contain exactly the addresses between the two ends, inclusive, whichever end is given first.", "quantifier": "every pair of addresses of one family, both overflow-check settings", "why_tests_cant": "2^256 ranges; the panicking and diverging ones lie at the end of the address space", "anchors": ["src/cmds/derange.rs: range_to_subnets"]}
{"id": "C40", "title": "derange uses the fewest networks", "statement": "No list of CIDR networks containing exactly the addresses of the range is shorter than the one derange returns.", "quantifier": "every range on which derange returns, every competing list of CIDR networks", "why_tests_cant": "quantifies over all competing covers", "anchors": ["src/cmds/derange.rs: range_to_subnets"]}
{"id": "C41", "title": "derange ignores the order of its ends", "statement": "range_to_subnets gives the same outcome (result, panic or divergence) when its two ends are exchanged.", "quantifier": "every pair of addresses of one family", "why_tests_cant": "2^256 pairs", "anchors": ["src/cmds/derange.rs: range_to_subnets"]}
{"id": "C42", "title": "minimize preserves the set of addresses", "statement": "minimize terminates, never panics (its internal assertions hold), and its output networks contain together exactly the addresses its input networks contain.", "quantifier": "every list of well-formed networks, lopsided masks included, every hash iteration order, every unstable sort", "why_tests_cant": "unbounded lists and unspecified iteration orders", "anchors": ["src/cmds/minimize.rs: minimize_subnets"]}
{"id": "C43", "title": "minimize depends only on the set of networks", "statement": "minimize gives the same output for any two input lists with the same elements, regardless of order and repetition, of the hash set's iteration order and of how the unstable sort breaks ties.", "quantifier": "every pair of well-formed lists with the same elements, every pair of runtimes", "why_tests_cant": "iteration order is randomised per process", "anchors": ["src/cmds/minimize.rs: minimize_subnets"]}
{"id": "C44", "title": "minimize output is sorted and free of duplicates", "statement": "The output of minimize is strictly ascending by base address and mask, well formed, and no longer than the input.", "quantifier": "every list of well-formed networks", "why_tests_cant": "unbounded lists", "anchors": ["src/cmds/minimize.rs: minimize_subnets"]}
{"id": "C45", "title": "minimize removes networks covered by another", "statement": "No network in the output of minimize is contained in another network of the output.", "quantifier": "every list of well-formed networks, lopsided masks included", "why_tests_cant": "unbounded lists", "anchors": ["src/cmds/minimize.rs: minimize_subnets"]}
{"id": "C46", "title": "minimize yields the smallest list for CIDR input", "statement": "For CIDR input the output is CIDR, pairwise disjoint, and no list of CIDR networks covering the same addresses is shorter; any list of the same length covering them is a reordering of it.", "quantifier": "every list of CIDR networks, every competing list of CIDR networks", "why_tests_cant": "quantifies over all competing covers", "anchors": ["src/cmds/minimize.rs: minimize_subnets"]}
{"id": "C47", "title": "minimize is idempotent", "statement": "Minimizing the output of minimize returns it unchanged.", "quantifier": "every list of well-formed networks, lopsided masks included", "why_tests_cant": "unbounded lists", "anchors": ["src/cmds/minimize.rs: minimize_subnets"]}
{"id": "C48", "title": "resize to subnets partitions a CIDR network", "statement": "Resizing a CIDR network to a longer prefix returns, in ascending order, 2^(difference) networks of the new prefix, pairwise disjoint, that together contain exactly the addresses of the original; it terminates and does not panic.", "quantifier": "every CIDR network and every longer prefix, both families", "why_tests_cant": "up to 2^128 subnets, and the end of the address space", "anchors": ["src/cmds/resize.rs: resize_network"]}
{"id": "C49", "title": "resize to a supernet contains the original", "statement": "Resizing a CIDR network to a shorter prefix returns the one network of that prefix that contains it; to the same prefix returns the network itself; the reported direction matches.", "quantifier": "every CIDR network and every prefix not longer than its own", "why_tests_cant": "all networks and prefixes", "anchors": ["src/cmds/resize.rs: resize_network"]}
{"id": "C50", "title": "resize handles lopsided masks consistently", "statement": "Resizing to any mask, lopsided or not, never panics; the direction compares the numbers of host bits; every returned network has the new mask, they are pairwise disjoint, and for equal or smaller size they have together as many addresses as the original; resizing to a same-sized mask and back returns the original network.", "quantifier": "every network and every mask of both families", "why_tests_cant": "2^384 combinations", "anchors": ["src/cmds/resize.rs: resize_network"]}
{"id": "C51", "title": "split gives each request a large enough network of minimal size", "statement": "When split_subnet succeeds it returns one network per requested host count, in request order; each has at least the requested number of host addresses and half its size would not suffice.", "quantifier": "every CIDR network, every list of non-negative host counts, every unstable sort order", "why_tests_cant": "unbounded lists and numbers", "anchors": ["src/cmds/split.rs: split_subnet"]}
{"id": "C52", "title": "split results: which networks, exactly", "statement": "The networks returned by split_subnet are pairwise disjoint and adjacent, laid out largest first. Exactly those lists of networks can be returned (with some sort_unstable that keeps its contract) that contain for each request in order the smallest CIDR network with enough addresses, allotted without gaps in descending order of the counts from the base address rounded down to the size of the largest, and ending before the end of the address space; if the counts are distinct there is only one.", "quantifier": "every CIDR network, every list of host counts", "why_tests_cant": "unbounded lists", "anchors": ["src/cmds/split.rs: split_subnet"]}
{"id": "C53", "title": "split stays inside the given network or says so", "statement": "When ripcalc --split does not report that the network is too small, every returned network is contained in the network being split.", "quantifier": "every CIDR network, every list of host counts", "why_tests_cant": "unbounded lists; alignment effects", "anchors": ["src/cmds/split.rs: output_split", "src/cmds/split.rs: split_subnet"]}
{"id": "C54", "title": "split succeeds whenever the requests fit", "statement": "If the block sizes needed for the requested host counts add up to at most the size of the network, split_subnet succeeds with networks inside the given network. It refuses exactly if no such list of networks exists.", "quantifier": "every CIDR network, every list of host counts", "why_tests_cant": "unbounded lists; fails at the end of the address space", "anchors": ["src/cmds/split.rs: split_subnet"]}
{"id": "C55", "title": "split lists exactly the unused addresses", "statement": "After a successful split that fits, the listed unused networks contain exactly the addresses of the split network that no returned network contains.", "quantifier": "every CIDR network, every list of host counts", "why_tests_cant": "unbounded lists; fails when nothing is left and at the end of the address space", "anchors": ["src/cmds/split.rs: output_split", "src/cmds/derange.rs: range_to_subnets"]}
{"id": "C56", "title": "Command dispatch and exit codes", "statement": "The program exits with 0 or 1 whenever it does not panic; fewer than two arguments, and too few or too many arguments for a mode, print the usage text, nothing on standard output, and exit 1; --help prints usage and exits 0.", "quantifier": "every argument list", "why_tests_cant": "unbounded argument lists", "anchors": ["src/main.rs: do_main", "src/cmds/*.rs: argument count checks"]}
{"id": "C57", "title": "Malformed input produces an error and no result", "statement": "In the show, minimize, derange, resize and split modes, if any specification argument fails to parse the exit code is 1 and nothing is printed on standard output.", "quantifier": "every argument list", "why_tests_cant": "unbounded argument lists", "anchors": ["src/cmds/show_net.rs: show_net", "src/cmds/minimize.rs: minimize", "src/cmds/derange.rs: derange", "src/cmds/resize.rs: resize", "src/cmds/split.rs: split"]}
{"id": "C58", "title": "Showing a network never panics", "statement": "The default mode returns normally for every argument list: it prints a block per network, or an error.", "quantifier": "every argument list, colours on, or off up to the line breaks of C61", "why_tests_cant": "the block contains an unwrap and several slices and index operations", "anchors": ["src/cmds/show_net.rs: show_net", "src/cmds/show_net.rs: output_network"]}
{"id": "C59", "title": "The binary column shows the address bits", "statement": "In the network display, the visible characters of the binary column are the bits of the address, most significant first, with a dot after every 8 bits (IPv4) or a colon after every 16 bits (IPv6), whatever the mask and colouring.", "quantifier": "every address and every mask, both families; colours on, or off up to the line breaks of C61", "why_tests_cant": "2^256 pairs", "anchors": ["src/cmds/show_net.rs: output_binary_ipv4_address", "src/cmds/show_net.rs: output_binary_ipv6_address", "src/console.rs: write_in_color"]}
{"id": "C60", "title": "Address class label is right", "statement": "The class label printed for an IPv4 network is A, B, C, D or E exactly when the mask fixes the leading bits that define that class and they have the value of that class; otherwise none is printed.", "quantifier": "every IPv4 network with at least one host; colours on, or off up to the line breaks of C61", "why_tests_cant": "all networks", "anchors": ["src/cmds/show_net.rs: output_ipv4_class"]}
{"id": "C61", "title": "Disabling colours only removes colours", "statement": "With colours disabled (for example when the output is piped) the printed text is the same as the visible text with colours enabled.", "quantifier": "every argument list", "why_tests_cant": "depends on the terminal state, which tests do not control", "anchors": ["src/console.rs: write_in_color"]}
{"id": "C62", "title": "The displayed block describes the network", "statement": "The block printed for a network (any mask) consists of the address, netmask and wildcard lines, the network line, the first and last host (or 'no hosts'), the broadcast address when there is one, and the number of hosts, with the values defined by the network and each column padded as laid out.", "quantifier": "every IPv4 and IPv6 network with any mask, with and without an address; colours on, or off up to the line breaks of C61", "why_tests_cant": "unbounded set of networks, with special cases for small ones", "anchors": ["src/cmds/show_net.rs: output_network", "src/cmds/show_net.rs: output_ipv4_network", "src/cmds/show_net.rs: output_ipv6_network"]}
{"id": "C63", "title": "Minimize command prints the minimized list", "statement": "ripcalc --minimize ends normally for every argument list: with one line per minimized network and exit code 0 if all arguments are networks of one family, otherwise with exactly one message, no standard output and exit code 1.", "quantifier": "every argument list, every hash order and unstable sort", "why_tests_cant": "unbounded argument lists; termination of the fixpoint loop", "anchors": ["src/cmds/minimize.rs: minimize"]}
{"id": "C64", "title": "Resize command prints original and result", "statement": "ripcalc --resize prints the display of the original network, then the supernet, the same-sized network or the numbered subnets returned by resize_network, according to the kind of result; in every other case it prints one message, nothing on standard output, and exits with 1.", "quantifier": "every argument list; colours on, or off up to the line breaks of C61", "why_tests_cant": "unbounded number of subnets; all masks", "anchors": ["src/cmds/resize.rs: resize", "src/cmds/resize.rs: resize_and_output"]}
{"id": "C65", "title": "Split command output and outcomes", "statement": "ripcalc --split prints the display of the network, then for each request in order the display of its network under a heading with the requested count, then either that the network is too small (exactly if the greatest allocated address is outside) or the unused networks; it reports the first bad host count, then a bad network.", "quantifier": "every argument list; colours on, or off up to the line breaks of C61", "why_tests_cant": "unbounded argument lists and numbers", "anchors": ["src/cmds/split.rs: split", "src/cmds/split.rs: output_split"]}
{"id": "C66", "title": "When the program ends normally", "statement": "Every run ends normally except: derange of a range containing the greatest address of its family; split of a network containing the greatest address when the greatest allocated address is in the network. The latter panics.", "quantifier": "every argument list, both overflow-check settings", "why_tests_cant": "absence of panics and non-termination over all inputs", "anchors": ["src/main.rs: do_main", "src/cmds/derange.rs: range_to_subnets", "src/cmds/split.rs: output_split"]}
{"id": "C67", "title": "Colours tell network bits from host bits", "statement": "With colours enabled, in the binary column of an address with a mask, a bit is green exactly if the mask has a one there and yellow otherwise (except class bits); with an override colour every bit has that colour; separators are white.", "quantifier": "every address and mask, both families", "why_tests_cant": "2^256 pairs", "anchors": ["src/cmds/show_net.rs: output_binary_ipv4_address", "src/cmds/show_net.rs: output_binary_ipv6_address"]}
{"id": "C68", "title": "Highlighted class bits agree with the class label", "statement": "With colours enabled the bits highlighted in the network line are exactly the leading bits that define the class named in the label.", "quantifier": "every IPv4 network", "why_tests_cant": "all masks; false for some short prefixes", "anchors": ["src/cmds/show_net.rs: output_binary_ipv4_address", "src/cmds/show_net.rs: output_ipv4_class"]}
{"id": "C69", "title": "The display's colours", "statement": "With colours enabled the block has the labels white, addresses blue, address bits green or yellow by the mask, the netmask bits red, wildcard, host and broadcast bits yellow, the class label magenta and the class bits of the network line magenta only if they define that class.", "quantifier": "every IPv4 and IPv6 network with any mask, with and without an address", "why_tests_cant": "colour of every character of every display", "anchors": ["src/cmds/show_net.rs: output_network", "src/cmds/show_net.rs: output_ipv4_network", "src/cmds/show_net.rs: output_ipv6_network", "src/console.rs: write_in_color"]}
{"id": "C70", "title": "IPv4 text errors name the first offending place", "statement": "A text that is not an IPv4 address is rejected with the number of pieces if that is not four, otherwise with the index of the first piece that is not a number up to 255 and the reason (empty, not a number at its first offending character, or out of range); every text has exactly one of these faults or is an address.", "quantifier": "every string", "why_tests_cant": "unbounded set of malformed texts", "anchors": ["src/addr.rs: Ipv4Address::from_str"]}
{"id": "C71", "title": "IPv6 text errors name the first offending place", "statement": "A text that is not an IPv6 address is rejected with the number of pieces, the number of empty pieces, or the index among the eight filled groups, text and reason of the first bad group; every text has exactly one of these faults or is an address.", "quantifier": "every string", "why_tests_cant": "unbounded set of malformed texts", "anchors": ["src/addr.rs: Ipv6Address::from_str"]}
{"id": "C72", "title": "Network text errors", "statement": "A text that is not a network is rejected as unrecognised if it has none of the four shapes, otherwise with the fault of its address, then of its mask, or with its prefix if that is too large; a prefix is never reported as malformed except for overflow.", "quantifier": "every string", "why_tests_cant": "unbounded set of malformed texts", "anchors": ["src/cmds/mod.rs: parse_netspec"]}
{"id": "C73", "title": "Errors of the other parsers", "statement": "parse_addr and parse_subnet report the fault of the kind of text that the separators suggest, and parse_same_family_netspecs that of the first text that is no network if those before are of one family.", "quantifier": "every string, every list of strings", "why_tests_cant": "unbounded inputs", "anchors": ["src/cmds/mod.rs: parse_addr", "src/cmds/mod.rs: parse_subnet", "src/cmds/mod.rs: parse_same_family_netspecs"]}
{"id": "C74", "title": "Every message is one line of visible characters", "statement": "Whatever the arguments contain (line ends, control characters, escape sequences), every message on standard error other than the usage text is exactly one non-empty line without control characters; what a run writes to standard error is the usage text or a sequence of such lines. The usage text is twelve lines: the ways to call the program, each with the two words for its mode, stand below each other, and so do the three ways to write a mask.", "quantifier": "every argument vector, every message, every table of printable characters", "why_tests_cant": "arguments are arbitrary strings", "anchors": ["src/cmds/mod.rs: ParseNetspecError::fmt", "src/addr.rs: IpAddressParseError::fmt", "src/main.rs: usage"]}
{"id": "C75", "title": "A message can be read back", "statement": "A quoted argument in a message determines the argument, the text of a message determines which message it is with all its details, and all of standard error determines the sequence of messages.", "quantifier": "every pair of messages and of sequences of messages, even with different tables of printable characters", "why_tests_cant": "injectivity over unbounded strings", "anchors": ["src/cmds/mod.rs: ParseNetspecError::fmt", "src/addr.rs: IpAddressParseError::fmt", "src/cmds/resize.rs: resize", "src/cmds/split.rs: split", "src/cmds/enumerate.rs: enumerate"]}
{"id": "C76", "title": "Messages and exit codes agree", "statement": "If a message is written it is the only output and the exit code is 1 (exceptions: --help exits with 0, the enumerate mode has one message per malformed argument between its listings). Exit code 1 always comes with a message, or in the split mode with the line that there are not enough addresses; exit code 0 comes without message except for --help.", "quantifier": "every argument vector, both build profiles, with and without colours", "why_tests_cant": "unbounded argument vectors", "anchors": ["src/main.rs: do_main"]}
{"id": "C77", "title": "Standard output is printable", "statement": "Every run writes only printable ASCII characters and line ends to standard output, whatever the arguments contain, and coloured text contains no line end.", "quantifier": "every argument vector, including runs that panic", "why_tests_cant": "unbounded argument vectors", "anchors": ["src/main.rs: do_main", "src/console.rs: write_in_color"]}
{"id": "C78", "title": "What a terminal shows", "statement": "A terminal that receives the output of any run shows exactly its characters in their colours, and is in the default colour at the end and between any two writes; the sixteen colours are distinct and are the sixteen colours of the palette; without colours no control sequence is written.", "quantifier": "every argument vector, every prefix of its output", "why_tests_cant": "unbounded argument vectors, all interleavings of control sequences and text", "anchors": ["src/console.rs: write_in_color"]}
{"id": "C79", "title": "Host counts", "statement": "A host count argument is accepted if and only if it is a decimal integer with at most one sign in front and with underscores anywhere but in front of the digits; it then stands for exactly one number, every natural number can be written, and the split mode works with the numbers in the order of the arguments provided that none is negative.", "quantifier": "every string, every list of strings", "why_tests_cant": "unbounded strings and numbers", "anchors": ["src/cmds/split.rs: split"]}
{"id": "C80", "title": "Which message for which arguments", "statement": "For each mode, a message is written if and only if the arguments deserve it: the usage text for a wrong number of arguments, otherwise the first fault in the order in which the arguments are examined (host counts before the network in the split mode, both addresses before their families in the derange mode, the network before the target in the resize mode, all networks before anything is displayed), naming that fault; the enumerate mode writes exactly one message per malformed argument, in order.", "quantifier": "every argument vector, both build profiles, with and without colours", "why_tests_cant": "unbounded argument vectors", "anchors": ["src/main.rs: do_main", "src/cmds/show_net.rs: show_net", "src/cmds/minimize.rs: minimize", "src/cmds/derange.rs: derange", "src/cmds/resize.rs: resize", "src/cmds/split.rs: split", "src/cmds/enumerate.rs: enumerate"]}
{"id": "C81", "title": "Messages tell the truth", "statement": "The text on standard error says what is wrong with the arguments: it quotes the malformed argument or piece so that it can be read back, the index, the count of pieces or of empty pieces, the value and the limit in it are those of the argument, and the reason given for a number that cannot be read is the first offending place in it. Standard error is empty, one such line, the usage text, or in the enumerate mode one line per malformed argument.", "quantifier": "every argument vector, both build profiles, with and without colours, every table of printable characters", "why_tests_cant": "unbounded argument vectors and strings", "anchors": ["src/addr.rs: IpAddressParseError::fmt", "src/cmds/mod.rs: ParseNetspecError::fmt", "src/cmds/show_net.rs: show_net", "src/cmds/minimize.rs: minimize", "src/cmds/derange.rs: derange", "src/cmds/resize.rs: resize", "src/cmds/split.rs: split", "src/cmds/enumerate.rs: enumerate"]}
{"id": "C82", "title": "IPv6 texts of RFC 4291", "statement": "A text is read as an IPv6 address if and only if it is a text representation of that address by RFC 4291, section 2.2 (eight groups of one to four hexadecimal digits of either case, or fewer with one double colon); in a network in front of a slash and a prefix length likewise. Each such text stands for one address.", "quantifier": "every string, every address", "why_tests_cant": "unbounded strings", "anchors": ["src/addr.rs: Ipv6Address::from_str", "src/cmds/mod.rs: parse_netspec"]}
{"id": "C83", "title": "Recommended IPv6 texts of RFC 5952", "statement": "An IPv6 address is displayed as RFC 5952, section 4 prescribes (lower case, no leading zeros, the first longest run of at least two zero groups shortened and nothing else); that text exists, is unique and is read as that address.", "quantifier": "every address", "why_tests_cant": "2^128 addresses", "anchors": ["src/addr.rs: Ipv6Address::fmt", "src/addr.rs: Ipv6Address::from_str"]}
{"id": "C84", "title": "Minimizing depends on the addresses only", "statement": "Two lists of CIDR networks with the same set of addresses are minimized to the same list, whatever the order, repetition and subdivision, the hash seeds and the build profile; the result is the only sorted list of CIDR networks with these addresses of least length, and the only sorted one in which no two networks together form a network.", "quantifier": "all finite lists of CIDR networks, both address families", "why_tests_cant": "sets of up to 2^128 addresses, unboundedly many lists for each", "anchors": ["src/cmds/minimize.rs: minimize_subnets"]}
{"id": "C85", "title": "The operations undo each other", "statement": "Minimizing the pieces of a resized CIDR network, its enumerated addresses, or the networks of a split with the unused ones (if it stays inside and something is left below the end of the address space), gives back the network; resizing a piece back gives the network; the range from the first to the last address of a network below the end of the address space is converted to that network; the networks of a range are a fixed point of minimizing, are what minimizing any CIDR description of the range gives, and enumerate to the addresses of the range in order. For IPv4 this also holds for printed lines where the next command takes such lines: the lines of a range minimize to themselves and enumerate to the addresses of the range, minimized lines minimize to themselves, and the displayed first and last address of a network give its line; for IPv6 the lines of a range minimize to themselves if and only if all their addresses can be read again.", "quantifier": "all networks, ranges, lists and command lines, both build profiles", "why_tests_cant": "2^128 addresses, unbounded lists", "anchors": ["src/cmds/minimize.rs: minimize_subnets", "src/cmds/resize.rs: resize_network", "src/cmds/derange.rs: range_to_subnets", "src/cmds/enumerate.rs: enumerate", "src/cmds/split.rs: split_subnet"]}
{"id": "C86", "title": "How many networks a range needs", "statement": "A range whose ends agree in all but the lowest k bits is converted to at most 2k-2 networks (one, if k is at most 1); so IPv4 ranges need at most 62 and IPv6 ranges at most 254 networks, and both bounds are attained. Exactly: let m be a place in the range (or just after it) divisible by a power of two greater than its distance from the first address and from the address after the last; there always is one, and the number of networks is the number of ones in base two of these two distances together.", "quantifier": "all pairs of addresses, both address families", "why_tests_cant": "2^256 pairs of addresses", "anchors": ["src/cmds/derange.rs: range_to_subnets"]}
{"id": "C87", "title": "The colour test", "statement": "With --color-test as mode, whatever other arguments there are, each of the sixteen colours is shown exactly once, by its own name in its own colour filled up to 20 characters, in the order of the colour numbers, and the exit code is 0; without colours there are sixteen lines with the names.", "quantifier": "every argument vector with that mode", "why_tests_cant": "unbounded argument vectors", "anchors": ["src/main.rs: color_test", "src/main.rs: do_main", "src/console.rs: write_in_color"]}
{"id": "C88", "title": "What minimizing yields for any masks", "statement": "Say that a network arises from a list if it is in the list and inside no other network of it, or joins two networks that arise, have the same mask and differ in the lowest bit of it only. For every list, with any masks, every network minimizing yields arises, and every network that arises is in the result or a part of one reached by joining; it is in the result if its twin does not arise. If no network arises by joining in two ways, as for masks obtained from one another by clearing low bits, the result consists of exactly the networks that arise and whose twin does not; without that it may contain others. The steps are determined for any masks: starting from the sorted networks that are inside no other, the first network that has its twin behind it is replaced, together with its twin, by their join, the list is sorted again, and this repeats until there are no twins; the result is the list this ends with and no other.", "quantifier": "all lists of networks, all masks, both address families", "why_tests_cant": "unbounded lists, 2^128 masks", "anchors": ["src/cmds/minimize.rs: minimize_subnets"]}
{"id": "C89", "title": "The process", "statement": "The arguments are read as UTF-8; with an argument that is not UTF-8 the process ends with status 101 and no output but the message of the panic (which is not modelled anywhere). Otherwise standard output and standard error are the UTF-8 of what do_main writes. The status is 0, 1 or 101, the last exactly if an argument is not UTF-8 or do_main panics; the process never ends exactly if it has no overflow checks and is to convert the range of all addresses. Standard output consists of printable ASCII, line ends and, only with colours, escapes; with status 0 standard error is empty except for --help, and status 1 is never silent.", "quantifier": "all lists of byte strings as arguments", "why_tests_cant": "unbounded argument vectors of arbitrary bytes; endless runs", "anchors": ["src/main.rs: main", "src/main.rs: do_main"]}
{"id": "C90", "title": "The pattern texts", "statement": "The four regular expressions of the code, read as pattern texts, are well formed (a text is well formed exactly if it is in the grammar of the pattern language and no two of its groups have the same name, and it has only one reading), and wherever one of them is found in a text, the named groups addr, wildcard, mask and cidr are the ones parse_netspec uses; a text is rejected as unrecognized exactly if none of the four is found in it.", "quantifier": "all texts", "why_tests_cant": "unbounded texts", "anchors": ["src/cmds/mod.rs: IPV4_WITH_SUBNET_RE", "src/cmds/mod.rs: IPV4_WITH_CIDR_RE", "src/cmds/mod.rs: IPV6_WITH_SUBNET_RE", "src/cmds/mod.rs: IPV6_WITH_CIDR_RE", "src/cmds/mod.rs: parse_netspec"]}
{"id": "C91", "title": "How many rounds the loops take", "statement": "When they end, the loops take a number of rounds known from the result: converting a range takes one round for each network found, one for each bit by which it was enlarged, and one to end (at most 2047 for IPv4 and 32767 for IPv6); minimizing takes at most one round more than the number of networks it removes; enumerating one for each address and one to end; enlarging for a host count one for each bit and one to end; dividing one for each piece and possibly one to end.", "quantifier": "all inputs, both address families, both build profiles", "why_tests_cant": "unbounded lists, 2^256 pairs of addresses, networks of up to 2^128 addresses", "anchors": ["src/cmds/derange.rs: range_to_subnets", "src/cmds/minimize.rs: minimize_subnets", "src/cmds/enumerate.rs: enumerate", "src/cmds/resize.rs: resize_network", "src/cmds/split.rs: split_subnet"]}
{"id": "C92", "title": "Standard output consists of whole lines", "statement": "When the program ends without a panic, its standard output is empty or ends with a line end, so that every line is complete.", "quantifier": "every argument vector, both build profiles, with and without colours", "why_tests_cant": "unbounded argument vectors", "anchors": ["src/main.rs: do_main", "src/cmds/show_net.rs: output_network", "src/console.rs: write_in_color", "src/cmds/resize.rs: resize", "src/cmds/split.rs: split", "src/cmds/minimize.rs: minimize", "src/cmds/derange.rs: derange", "src/cmds/enumerate.rs: enumerate"]}
{"id": "C93", "title": "No output is lost silently", "statement": "Whatever the devices behind standard output and standard error do with what is written to them, they have received a beginning of what was to be written; if every write takes something, they have received all and the status is the same as with perfect devices; if the status is not 101, then nothing is missing on either stream. On devices with room for a certain number of bytes the status is 101 exactly if the program panics anyway or a stream does not fit.", "quantifier": "all lists of byte strings as arguments, all devices (functions from a state and the bytes to the number of bytes taken or an error, and a new state), all ways of cutting the written text into pieces", "why_tests_cant": "unbounded argument vectors, arbitrary devices with arbitrarily many states", "anchors": ["src/main.rs: main", "src/main.rs: do_main", "src/console.rs: write_in_color", "src/cmds/show_net.rs: output_network"]}
{"id": "C94", "title": "The columns line up", "statement": "With colours enabled every line of the display of a network is one of the remarks (=>, no hosts, no broadcast, no hosts/net) or has a label, a text and a third column that begin at fixed places (0, 11 and 32 for IPv4; 0, 11 and 57 for IPv6) with a blank before each: no text is too long for its column, whatever the address and the mask. The third column is the binary text without blanks, of 35 and 135 characters, or the address class. In the resize and split modes every other line is empty, one of the headings and remarks, or a CIDR network, and all displays of a run have the columns of one family.", "quantifier": "all networks with any masks, all addresses, all argument lists of the default, resize and split modes", "why_tests_cant": "2^256 networks per family", "anchors": ["src/cmds/show_net.rs: output_network", "src/cmds/show_net.rs: output_binary_ipv4_address", "src/cmds/show_net.rs: output_binary_ipv6_address", "src/console.rs: write_in_color", "src/cmds/resize.rs: resize", "src/cmds/split.rs: split"]}
{"id": "C95", "title": "The display can be read back", "statement": "What is printed for a list of networks determines the addresses and networks: if two runs print the same up to line ends and colours, the same addresses with the same networks were given in the same order. The output of the resize and split modes determines the given network, the kind of result and the networks found.", "quantifier": "all argument lists, both build profiles, with and without colours", "why_tests_cant": "pairs of unbounded argument lists", "anchors": ["src/cmds/show_net.rs: show_net", "src/cmds/show_net.rs: output_network", "src/cmds/resize.rs: resize", "src/cmds/split.rs: split", "src/console.rs: write_in_color"]}
{"id": "C96", "title": "The printed lists decide equality", "statement": "Two lists of CIDR networks of any families have the same addresses exactly if the minimize mode prints the same for them. Two ranges of which the derange mode prints networks have the same ends, in one order or the other, exactly if it prints the same for them. The enumerate mode prints the same for two lists of networks exactly if the addresses listed are the same in the same order; for single networks, exactly if the networks are equal.", "quantifier": "all argument lists, both build profiles, with and without colours, all hash seeds", "why_tests_cant": "pairs of unbounded argument lists", "anchors": ["src/cmds/minimize.rs: minimize", "src/cmds/derange.rs: derange", "src/cmds/enumerate.rs: enumerate", "src/net.rs: IpNetwork::fmt"]}
{"id": "C97", "title": "Reproducible output", "statement": "What is written on both streams and how the program ends is determined by the arguments and the colour setting: it depends neither on the seeds of the hash tables, nor on the order in which unstable sorting leaves equal elements, nor on whether the build checks for overflow, with exactly two exceptions. Covering a whole address space with the derange mode panics in one build and never ends in the other. In the split mode the order of the networks for equal numbers of hosts is left open; the output is then the same except that the texts of blocks with the same heading change places.", "quantifier": "all argument lists, all pairs of platforms (hash orders, unstable sorts satisfying their documentation, both build profiles)", "why_tests_cant": "runs on one platform with one build cannot show what another platform does; unbounded argument lists", "anchors": ["src/main.rs: do_main", "src/cmds/split.rs: split_subnet", "src/cmds/minimize.rs: minimize_subnets", "src/cmds/derange.rs: range_to_subnets", "src/addr.rs: add_offset"]}
{"id": "C98", "title": "What is written before a panic", "statement": "A run of the program that panics has written no message of its own and only whole lines to standard output: nothing at all in the derange mode and for arguments that are not UTF-8, and in the split mode the network, all networks found and the heading of the list of unused networks, so that only the list itself is missing. No other mode panics.", "quantifier": "all argument lists and all lists of byte strings as arguments, both build profiles, with and without colours, all platforms", "why_tests_cant": "unbounded argument lists; the panics occur at the end of the address space only", "anchors": ["src/cmds/split.rs: split", "src/cmds/derange.rs: derange", "src/main.rs: main", "src/main.rs: do_main"]}
{"id": "C99", "title": "The list of unused networks is what the derange mode prints", "statement": "If the split mode lists unused networks, the list is line by line what the derange mode prints for the address after the greatest used one and the greatest address of the network, in either order and on any platform; no list of CIDR networks with the same addresses is shorter, and one that is as short consists of the same networks.", "quantifier": "all networks with any masks, all non-empty lists of host counts, all spellings of the two addresses", "why_tests_cant": "unbounded lists of requests in 2^32 or 2^128 places", "anchors": ["src/cmds/split.rs: output_split", "src/cmds/derange.rs: range_to_subnets", "src/cmds/derange.rs: derange"]}
{"id": "C100", "title": "What the program does, for all arguments", "statement": "A description of the program that mentions no function of it (which modes there are, how arguments are read, which networks, addresses, headings, remarks and messages are shown, in which order, in which pieces and in which colours, and whether the run ends with a status, panics or never ends) holds for an outcome exactly if some platform and lawful sorting and hashing make the program have it. There is an outcome for all arguments; there is only one unless a split succeeds in which a number of hosts occurs twice, and then there are two with different texts. From the bytes of the arguments to the coloured cells of a terminal and the status of the process, what happens is one described outcome and no other; without colours the bytes written are those of one described outcome, each coloured piece on a line of its own, and of no other.", "quantifier": "all argument vectors, as texts and as bytes, all modes, both families, all platforms with and without colours, both overflow profiles", "why_tests_cant": "unbounded argument vectors; a test compares single outcomes, not the program with a complete description", "anchors": ["src/main.rs: do_main", "src/cmds/show_net.rs: output_ipv4_network", "src/cmds/show_net.rs: output_ipv6_network", "src/cmds/show_net.rs: show_net", "src/cmds/minimize.rs: minimize", "src/cmds/derange.rs: derange", "src/cmds/resize.rs: resize", "src/cmds/split.rs: split", "src/cmds/enumerate.rs: enumerate"]}
{"id": "C101", "title": "Both streams on one terminal", "statement": "When standard output and standard error lead to the same device, it gets the two streams in the order of the program, although standard output is buffered and standard error is not: enumerating shows, for each argument in order, its addresses or the line that says why it is no network; in the other modes at most one of the streams is used. If writes fail, the device has got a beginning of this; if the status is nevertheless not 101, it has got all up to the last line end. A device with room for k bytes gets the first k, and the status is 101 exactly if it is anyway or all up to the last line end does not fit.", "quantifier": "all argument vectors, all devices (any number of bytes taken per write, failing at any time), all ways the formatting machinery cuts a text into pieces", "why_tests_cant": "depends on the state of a buffer at every message; unbounded output; tests capture the streams separately", "anchors": ["src/cmds/enumerate.rs: enumerate", "src/main.rs: do_main", "src/main.rs: main"]}
{"id": "C102", "title": "Padding reaches the width and no further", "statement": "The output function adds to a text exactly the blanks that are missing to the given width: behind the text if the width is positive, before it if it is negative, none if the text is as long or the width is 0. It writes the result in the colour if there is one and colours are on, and as a line otherwise. Length means the number of bytes; every text the program pads is ASCII.", "quantifier": "all texts, all widths (as unbounded integers), all colours", "why_tests_cant": "unbounded texts and widths; the program itself never uses a negative width", "anchors": ["src/console.rs: write_in_color"]}
{"id": "C103", "title": "In several steps or at once", "statement": "Resizing in two steps agrees with resizing at once. Pieces of pieces, in order, are the pieces. To a size at least that of the network and of the intermediate masks, every piece leads to the one network that the network itself leads to. To a size between the two, the pieces lead to exactly the networks that the network itself leads to. Minimizing two portions of CIDR networks separately and then both results together gives what minimizing everything at once gives. The networks of two ranges that overlap or adjoin, minimized together, are the networks of the joint range. The last two hold for the lines printed by one run and given to the next; for IPv6 only if those lines can be read again, and otherwise the next run complains.", "quantifier": "all well-formed networks and all masks (lopsided ones too) of both families; all lists of CIDR networks; all ranges; all hash and sort orders, which may differ between the steps", "why_tests_cant": "quantifies over pairs of masks, lists and ranges, and over independent runs with different hash orders", "anchors": ["src/cmds/resize.rs: resize", "src/cmds/minimize.rs: minimize_subnets", "src/cmds/derange.rs: range_to_subnets"]}
{"id": "C104", "title": "What the usage text says is what the program does", "statement": "The usage text is true: each mode takes as many arguments as its synopsis says (a trailing ellipsis meaning one or more of the last), a SUBNET can be written as a mask, as a prefix length or as a wildcard after a minus sign, and IPv4 and IPv6 cannot be mixed in one invocation.", "quantifier": "all invocations: all modes in both spellings, any number of arguments and any texts", "why_tests_cant": "relates a text to the behaviour for every number and form of arguments; needs both directions", "anchors": ["src/main.rs: usage", "src/main.rs: do_main", "src/cmds/derange.rs: derange", "src/cmds/enumerate.rs: enumerate", "src/cmds/resize.rs: resize", "src/cmds/show_net.rs: show_net"]}
{"id": "C105", "title": "The results are the greatest networks", "statement": "Minimizing CIDR networks gives exactly those CIDR networks that lie within the given addresses and are inside no other CIDR network that does; every CIDR network within the given addresses is inside exactly one result; and if all addresses of one list are in another, each result for the first is inside exactly one result for the second. The same holds for the networks of a range and for lists whose masks arise from one mask by clearing low bits. Whatever the masks, each given network is inside one of the results.", "quantifier": "all lists of well-formed networks and all ranges of both families, all networks compared with, all hash and sort orders", "why_tests_cant": "compares each result with every CIDR network of the address space, for every input and hash order", "anchors": ["src/cmds/minimize.rs: minimize_subnets", "src/cmds/derange.rs: range_to_subnets"]}
{"id": "C106", "title": "Asking for less never makes a split fail", "statement": "If a network can be split for some host counts, it can be split for any counts that arise by dropping, lowering or reordering some, using no address that was not used before; so results that were inside the network stay inside. On the command line, for a CIDR network, if fewer or smaller counts bring the report that there are not enough addresses or that the network is too small, the greater ones bring one of these reports too, and if the greater ones bring neither, the smaller ones lead on to the unused networks. (For masks with gaps the report itself can change for the worse: it looks at the greatest used address only.)", "quantifier": "all networks of both families, all nonempty lists of host counts and all lists asking for no more, all sort orders, which may differ between the two", "why_tests_cant": "relates the outcomes of two runs for unbounded families of request lists", "anchors": ["src/cmds/split.rs: split_subnet", "src/cmds/split.rs: output_split"]}
{"id": "C107", "title": "Splitting finds room whenever there is room", "statement": "For a CIDR network, if there are any networks inside it, no two with a common address, that offer each requested host count plus two addresses, then splitting returns networks inside it, unless the blocks it would use end with the last address of the whole address space, in which case it refuses; and only then. Whatever the mask, no other way to serve the requests from the first used address on ends earlier than the returned networks. On the command line such a request is never answered with one of the two error reports, for a network without the last address of all. (For masks with gaps there may be room that splitting does not find.)", "quantifier": "all networks of both families, all lists of host counts, all other placements whatever their masks and order, all sort orders", "why_tests_cant": "compares the result with every conceivable placement of the requests in the address space", "anchors": ["src/cmds/split.rs: split_subnet", "src/cmds/split.rs: output_split"]}
{"id": "C108", "title": "The same everywhere and in both families", "statement": "Take the addresses of an aligned block of 2^k addresses and the addresses at the same places in another such block, of the same family or of the other; in particular all IPv4 addresses and the IPv6 addresses with any fixed first 96 bits. For networks inside the block, with any masks, everything happens at the same places: which networks and addresses are contained, the numbers of addresses and hosts, the last address, the results of minimizing, of resizing, of enumerating, of converting a range (unless a range ends with the last address of all) and of splitting (if the networks lie in the block and do not use the last address of all; for equal requests one of the possible results).", "quantifier": "all blocks of all sizes of both address spaces, all lists of networks in them, all masks, ranges and host counts, all hash and sort orders, both build profiles", "why_tests_cant": "relates two runs on different data types for every input and every displacement", "anchors": ["src/addr.rs: impl IpAddress for Ipv4Address, Ipv6Address", "src/net.rs: IpNetwork", "src/cmds/minimize.rs: minimize_subnets", "src/cmds/derange.rs: range_to_subnets", "src/cmds/resize.rs: resize_network", "src/cmds/split.rs: split_subnet"]}
{"id": "C109", "title": "Several networks in one run or in several runs", "statement": "Enumerating several networks in one run writes, in order and on both streams, what runs with the single networks write, and succeeds exactly if each of those does; another order of the networks changes the order of the pieces only. Showing several networks in one run succeeds exactly if each single run does and then writes what those write, with an empty line between two of them; otherwise it does what the run with the first bad network does. No word for a mode is a network.", "quantifier": "all lists of arguments, all ways to cut them in two, all platforms", "why_tests_cant": "relates several runs for every list of arguments", "anchors": ["src/cmds/enumerate.rs: enumerate", "src/cmds/show_net.rs: show_net", "src/main.rs: do_main"]}
{"id": "C110", "title": "The program works with what its arguments say", "statement": "If every argument is replaced by another text that says the same, and the word for the mode by the other word for it, both streams and the exit code stay the same: networks may be written with a prefix length, a mask or a complement, and with any address of the network unless networks are shown; addresses, masks and numbers of hosts in any of their spellings. As the README says, the three ways to write a network are equivalent, a lopsided network cannot be written with a prefix length, and all modes that take networks except for splitting work with lopsided networks: they succeed without a message.", "quantifier": "all arguments, all spellings, all platforms", "why_tests_cant": "relates the runs of any two spellings of any arguments", "anchors": ["README.md: Network syntax", "README.md: Lopsided networks", "src/cmds/mod.rs: parse_netspec", "src/main.rs: do_main"]}
{"id": "C111", "title": "How short the lists could be with other masks", "statement": "Compared with lists of networks with any masks: the list for a range one end of which is the first or last address of a CIDR network containing the range is the shortest; the list for any range is at most twice as long as the shortest; for the range from the second address to the second last it has 62 networks (IPv6: 254) where 32 (IPv6: 128) suffice and fewer do not. Minimizing CIDR networks has no such bound: it can return 2^k networks, for any k below the width, where one suffices.", "quantifier": "all ranges of both families, all lists of networks with any masks", "why_tests_cant": "compares with every list of networks covering the range", "anchors": ["src/cmds/derange.rs: range_to_subnets", "src/cmds/minimize.rs: minimize_subnets"]}
{"id": "C112", "title": "The word size of the machine", "statement": "On two machines whose `usize` has b and b' bits (8 <= b <= b') the program ends alike and writes the same bytes to standard output and the same number of complaints for the same arguments; the complaints are the same except that a prefix of at least 2^b is reported as a number that does not fit instead of one out of range, and that in resize mode digits worth at least 2^b before a character that is not a digit are reported as a number that does not fit. For every b < b' there is a network whose complaint differs. The conversion of a range is the same for words of any size.", "quantifier": "all word sizes of at least 8 bits, all argument lists, both build profiles", "why_tests_cant": "tests run on one machine", "anchors": ["src/cmds/mod.rs: parse_netspec", "src/cmds/mod.rs: parse_subnet", "src/cmds/derange.rs: range_to_subnets", "src/main.rs: do_main"]}
{"id": "C113", "title": "The characters of arguments", "statement": "Exactly the characters 0123456789./- occur in IPv4 networks, 0123456789abcdef:/- in IPv6 networks, 0123456789.+ in IPv4 addresses and masks on their own, 0123456789abcdefABCDEF:+ in IPv6 addresses and masks on their own, and 0123456789_+- in numbers of hosts. Every run without a message is the colour test or has arguments that consist of the characters for their places; an argument with any other character (a space, a control character, a digit of another script) always brings a message.", "quantifier": "all argument lists, all characters of Unicode, both families, all modes", "why_tests_cant": "there are more than a million characters and infinitely many texts around them", "anchors": ["src/main.rs: do_main", "src/cmds/mod.rs: parse_netspec", "src/cmds/mod.rs: parse_addr", "src/cmds/mod.rs: parse_subnet", "src/cmds/split.rs: split"]}
{"id": "C114", "title": "The shape of the list for a range", "statement": "The networks for a range follow one another without a gap from the first address on; up to some place they become strictly greater, from there on strictly smaller. In full: for a place m in the range (or just after it) that is divisible by a power of two greater than its distances from the first address and from the address after the last, the sizes before m are the powers of two of which the first distance is the sum, the smallest first, and the sizes behind m those of the second distance, the greatest first. A list of CIDR networks is the list for some range exactly if it is not empty, the networks follow one another, do not reach the end of the address space, and no two of them form one network together.", "quantifier": "all pairs of addresses whose range is converted, all lists of networks, both families", "why_tests_cant": "2^256 pairs of addresses; tests compare a few ranges with lists written by hand", "anchors": ["src/cmds/derange.rs: range_to_subnets"]}
{"id": "C115", "title": "One network more", "statement": "If a CIDR network is added to a list of CIDR networks that is minimized, exactly one network N of the new result contains it, and the others are those of the old result that are not inside N, unchanged. If all addresses of the added network were there already, the result is the same. Otherwise the old results that disappear are those inside the added network and exactly one of each prefix length from that of the added network down to the one after that of N; so the result has at most one network more. Two lists together need at most as many networks as both on their own.", "quantifier": "all lists of CIDR networks, all added CIDR networks, all hash seeds, both profiles, both families", "why_tests_cant": "compares two runs on unboundedly many lists", "anchors": ["src/cmds/minimize.rs: minimize_subnets"]}
{"id": "C116", "title": "Renaming addresses", "statement": "Let the addresses be renamed so that the number of equal first bits of any two stays the same, as is done to make addresses in logs anonymous; changing fixed bits of all addresses and exchanging zeros and ones are examples. A CIDR network is renamed by renaming any of its addresses and keeping the prefix length, and among the one-to-one renamings these are the ones for which that works. Which addresses and networks are contained, which networks have a common address, the numbers of addresses and hosts stay the same; minimizing, resizing and enumerating the renamed networks gives the renamed results in another order; so does a range that is renamed to a range. The networks of the mirrored range (zeros and ones exchanged) are the mirrored networks in the opposite order.", "quantifier": "all such renamings, all CIDR networks and lists, all ranges, all hash seeds, both profiles, both families", "why_tests_cant": "quantifies over all renamings of the address space", "anchors": ["src/cmds/minimize.rs: minimize_subnets", "src/cmds/derange.rs: range_to_subnets", "src/cmds/resize.rs: resize", "src/cmds/enumerate.rs", "src/net.rs"]}
{"id": "C117", "title": "How long the lines are", "statement": "With colours no line on standard output has more than 192 characters except in the colour test, and no more than 67 if no argument contains a colon, so that the output for IPv4 fits on a terminal with 80 columns. Without colours no line at all has more than 79 characters, and no more than 46 if no argument contains a colon. The four bounds are attained. The colour test writes one line of 320 characters, without colours lines of 20. The usage has no more than 70 characters in a line.", "quantifier": "all arguments, all runtimes (hash seeds, profiles, colour settings)", "why_tests_cant": "quantifies over all arguments; the numbers in the headings grow with the number of networks and hosts", "anchors": ["src/main.rs", "src/console.rs", "src/cmds/show_net.rs", "src/cmds/split.rs", "src/cmds/resize.rs", "src/cmds/minimize.rs", "src/cmds/derange.rs", "src/cmds/enumerate.rs"]}
{"id": "C118", "title": "What a split depends on", "statement": "Which networks a split yields depends on the sizes of the networks needed for the requests and on nothing else about them: requests that need networks of the same sizes, in whatever order, are refused alike or get the same networks, and requests that get the same networks need networks of the same sizes. With the same numbers of hosts in another order the same networks go to the same numbers. The output of the program differs at most in the blocks of the networks: what precedes and follows them and how the run ends is the same, and below the headings the blocks are the same in another order.", "quantifier": "all networks of both families, all lists of numbers of hosts, all runtimes", "why_tests_cant": "compares two runs for all networks and all lists of requests", "anchors": ["src/cmds/split.rs"]}
{"id": "C119", "title": "How many lines are written", "statement": "With colours and success, showing networks writes nine lines for each network, or seven if at most one bit is free, and one between two of them; resizing writes seven lines, or five, for the given network and for each of the networks found, of which there are two to the power of the difference of the free bits. Splitting writes as many for the given network and for each number of hosts, one more, and at most 62 for the rest, or 254 for IPv6; with too few addresses only those for the given network and one more; before a panic those for all networks and one more. Enumerating writes for each network two to the power of the number of free bits, and nothing for other arguments. Minimizing writes at least one line and no more than it has networks. A range needs at least one line and at most 62, or 254 for IPv6.", "quantifier": "all arguments, all runtimes (with colours where networks are displayed)", "why_tests_cant": "quantifies over all arguments; the number of lines grows exponentially with the number of free bits", "anchors": ["src/main.rs", "src/cmds/show_net.rs", "src/cmds/split.rs", "src/cmds/resize.rs", "src/cmds/minimize.rs", "src/cmds/derange.rs", "src/cmds/enumerate.rs"]}
{"id": "C120", "title": "One network taken out of another", "statement": "If a CIDR network with prefix length q is inside one with prefix length p, the addresses of the larger that are not in the smaller can be written as CIDR networks with exactly one network of each prefix length from p+1 to q, and with no fewer networks. Minimizing any list of CIDR networks with exactly these addresses gives such a list. Converting the range before and the range behind the smaller network gives, together, the same, and minimizing it changes nothing; both ranges are converted unless the larger network reaches to the last of all addresses.", "quantifier": "all CIDR networks one inside the other, all lists of CIDR networks with the remaining addresses, both families, all runtimes", "why_tests_cant": "quantifies over all pairs of networks, all prefix lengths and all lists with the same addresses; minimality is over all lists", "anchors": ["src/cmds/minimize.rs", "src/cmds/derange.rs", "src/net.rs"]}
{"id": "C121", "title": "The display and the lists agree", "statement": "If listing the addresses of an argument writes some lines, displaying it succeeds, and the display names the first line as the network, the second and the last but one as the first and last host if there are at least four lines, the last as the broadcast address if there are at least two, and the number of lines less two as the number of hosts. Listing networks that lie one behind another and have together the addresses of a network lists the same as listing the network; so listing the networks into which a CIDR network is divided by a longer prefix lists the network.", "quantifier": "all arguments, both families, all well-formed networks, all runtimes (with colours where networks are displayed)", "why_tests_cant": "relates the output of two modes for all arguments; the lists grow exponentially with the number of free bits", "anchors": ["src/main.rs", "src/cmds/show_net.rs", "src/cmds/enumerate.rs", "src/cmds/resize.rs", "src/net.rs"]}
{"id": "C122", "title": "Zeros in front of numbers", "statement": "Adding any number of zeros in front of numbers of a text (decimal numbers of IPv4 addresses, hexadecimal groups of IPv6 addresses, prefix lengths, masks, numbers of hosts) does not change whether it is a network, address, mask or number of hosts, nor which one it is; numbers are always read in their base and never as octal. In every mode the program does the same for such arguments. So every IPv4 network has arguments of every greater length.", "quantifier": "all texts, any number of zeros at all places, both families, all modes, all runtimes", "why_tests_cant": "quantifies over all texts and all places and numbers of zeros, and compares whole runs of the program", "anchors": ["src/addr.rs", "src/net.rs", "src/main.rs", "src/cmds/mod.rs", "src/cmds/split.rs", "src/cmds/resize.rs", "src/cmds/derange.rs"]}
{"id": "C123", "title": "The order of networks and the tree of CIDR networks", "statement": "The derived order of networks compares the first addresses and then the masks; networks are equal in it exactly if they have the same addresses, and a network comes before every other network inside it. CIDR networks: the earlier of two lies before the other or strictly includes it; intersects answers whether one is inside the other; in a sorted list the networks inside one of them follow it without interruption; those that include one with prefix length p are exactly one for every length up to p, each inside the shorter ones; any two have a smallest one that includes both, and resizing both to a shorter prefix gives the same exactly for the lengths up to its length. What minimizing yields is sorted in this order.", "quantifier": "all pairs, triples and sorted lists of well-formed or CIDR networks, both families, all runtimes", "why_tests_cant": "quantifies over all networks and lists; uniqueness and minimality are over all CIDR networks", "anchors": ["src/net.rs", "src/addr.rs", "src/cmds/minimize.rs", "src/cmds/resize.rs"]}
{"id": "C124", "title": "Splitting into equal parts is resizing", "statement": "If the requests of a split all need networks of one size, and fit into a CIDR network, the split yields the first pieces, as many as there are requests, of resizing the network to that size, and for as many requests as there are pieces all of them; which of them goes to which request is not determined. At the end of the address space the two differ: resizing yields all pieces, splitting refuses. Whatever the requests, every network that a split yields inside a CIDR network is the network or one of the pieces of resizing it to the mask of the result, and resizing the result to the mask of the network gives the network back.", "quantifier": "all CIDR networks, all masks, all lists of numbers of hosts, all runtimes, both families", "why_tests_cant": "relates the results of two commands for all networks, sizes and requests and all orders in which equal requests are sorted", "anchors": ["src/cmds/split.rs", "src/cmds/resize.rs"]}
{"id": "C125", "title": "Unraveling permutes the bits", "statement": "For every mask there is one rearrangement of the bit positions by which every address is unraveled. Unraveling and weaving therefore commute with and, or, exclusive or and negation, and keep the number of ones and zeros. The addresses of a network are unraveled exactly to those of a CIDR network with as many addresses, whose base address is the unraveled base address; the order of two addresses of one network is kept, and so is that of two addresses that differ in network bits only.", "quantifier": "all masks, all addresses, all well-formed networks, both families", "why_tests_cant": "one rearrangement for all addresses of a mask is an exists-for-all statement over all masks", "anchors": ["src/bit_manip.rs", "src/net.rs"]}

import Verif.Conformance.Basic
/-!
# The examples of `/repo/README.md`, run on the model

What is visible on a terminal with colours; trailing blanks of a line are not compared.  `--resize` ends with an empty line,
which the document does not show.

Written by `tools/gen_conformance.py`.  These are tests of the model on literals, not proofs of properties.
-/
set_option maxRecDepth 100000
namespace Ripcalc.Conformance
open Ripcalc

-- lines 11-23
example : ShowsLines (doMain (evalRuntime .checked true) [chars! "ripcalc", chars! "192.168.2.4/24"]) 0
    [chars! "Address:   192.168.2.4          11000000.10101000.00000010.00000100",
      chars! "Netmask:   255.255.255.0 = 24   11111111.11111111.11111111.00000000",
      chars! "Wildcard:  0.0.0.255            00000000.00000000.00000000.11111111",
      chars! "=>",
      chars! "Network:   192.168.2.0/24       11000000.10101000.00000010.00000000",
      chars! "HostMin:   192.168.2.1          11000000.10101000.00000010.00000001",
      chars! "HostMax:   192.168.2.254        11000000.10101000.00000010.11111110",
      chars! "Broadcast: 192.168.2.255        11000000.10101000.00000010.11111111",
      chars! "Hosts/Net: 254                  Class C",
      []] :=
  (doMainE_approx 1000 _ _).shows (by decide +kernel)

-- lines 27-39
example : ShowsLines (doMain (evalRuntime .checked true) [chars! "ripcalc", chars! "fe80::38a2:b5f3:58dc:13d9/10"]) 0
    [chars! "Address:   fe80::38a2:b5f3:58dc:13d9                     1111111010000000:0000000000000000:0000000000000000:0000000000000000:0011100010100010:1011010111110011:0101100011011100:0001001111011001",
      chars! "Netmask:   ffc0:: = 10                                   1111111111000000:0000000000000000:0000000000000000:0000000000000000:0000000000000000:0000000000000000:0000000000000000:0000000000000000",
      chars! "Wildcard:  3f:ffff:ffff:ffff:ffff:ffff:ffff:ffff         0000000000111111:1111111111111111:1111111111111111:1111111111111111:1111111111111111:1111111111111111:1111111111111111:1111111111111111",
      chars! "=>",
      chars! "Network:   fe80::/10                                     1111111010000000:0000000000000000:0000000000000000:0000000000000000:0000000000000000:0000000000000000:0000000000000000:0000000000000000",
      chars! "HostMin:   fe80::1                                       1111111010000000:0000000000000000:0000000000000000:0000000000000000:0000000000000000:0000000000000000:0000000000000000:0000000000000001",
      chars! "HostMax:   febf:ffff:ffff:ffff:ffff:ffff:ffff:fffe       1111111010111111:1111111111111111:1111111111111111:1111111111111111:1111111111111111:1111111111111111:1111111111111111:1111111111111110",
      chars! "Broadcast: febf:ffff:ffff:ffff:ffff:ffff:ffff:ffff       1111111010111111:1111111111111111:1111111111111111:1111111111111111:1111111111111111:1111111111111111:1111111111111111:1111111111111111",
      chars! "Hosts/Net: 332306998946228968225951765070086142",
      []] :=
  (doMainE_approx 1000 _ _).shows (by decide +kernel)

-- lines 46-51
example : ShowsLines (doMain (evalRuntime .checked true) [chars! "ripcalc", chars! "--minimize", chars! "192.168.2.0/24", chars! "192.168.3.0/24", chars! "192.168.3.128/25", chars! "192.168.4.128/25"]) 0
    [chars! "192.168.2.0/23",
      chars! "192.168.4.128/25",
      []] :=
  (doMainE_approx 1000 _ _).shows (by decide +kernel)

-- lines 58-100
example : ShowsLines (doMain (evalRuntime .checked true) [chars! "ripcalc", chars! "--split", chars! "192.168.2.0/24", chars! "5", chars! "16", chars! "5", chars! "5"]) 0
    [chars! "Subnet to split:",
      chars! "Network:   192.168.2.0/24       11000000.10101000.00000010.00000000",
      chars! "HostMin:   192.168.2.1          11000000.10101000.00000010.00000001",
      chars! "HostMax:   192.168.2.254        11000000.10101000.00000010.11111110",
      chars! "Broadcast: 192.168.2.255        11000000.10101000.00000010.11111111",
      chars! "Hosts/Net: 254                  Class C",
      [],
      chars! "Subnet for 5 hosts:",
      chars! "Network:   192.168.2.32/29      11000000.10101000.00000010.00100000",
      chars! "HostMin:   192.168.2.33         11000000.10101000.00000010.00100001",
      chars! "HostMax:   192.168.2.38         11000000.10101000.00000010.00100110",
      chars! "Broadcast: 192.168.2.39         11000000.10101000.00000010.00100111",
      chars! "Hosts/Net: 6                    Class C",
      [],
      chars! "Subnet for 16 hosts:",
      chars! "Network:   192.168.2.0/27       11000000.10101000.00000010.00000000",
      chars! "HostMin:   192.168.2.1          11000000.10101000.00000010.00000001",
      chars! "HostMax:   192.168.2.30         11000000.10101000.00000010.00011110",
      chars! "Broadcast: 192.168.2.31         11000000.10101000.00000010.00011111",
      chars! "Hosts/Net: 30                   Class C",
      [],
      chars! "Subnet for 5 hosts:",
      chars! "Network:   192.168.2.40/29      11000000.10101000.00000010.00101000",
      chars! "HostMin:   192.168.2.41         11000000.10101000.00000010.00101001",
      chars! "HostMax:   192.168.2.46         11000000.10101000.00000010.00101110",
      chars! "Broadcast: 192.168.2.47         11000000.10101000.00000010.00101111",
      chars! "Hosts/Net: 6                    Class C",
      [],
      chars! "Subnet for 5 hosts:",
      chars! "Network:   192.168.2.48/29      11000000.10101000.00000010.00110000",
      chars! "HostMin:   192.168.2.49         11000000.10101000.00000010.00110001",
      chars! "HostMax:   192.168.2.54         11000000.10101000.00000010.00110110",
      chars! "Broadcast: 192.168.2.55         11000000.10101000.00000010.00110111",
      chars! "Hosts/Net: 6                    Class C",
      [],
      chars! "Unused networks:",
      chars! "192.168.2.56/29",
      chars! "192.168.2.64/26",
      chars! "192.168.2.128/25",
      []] :=
  (doMainE_approx 1000 _ _).shows (by decide +kernel)

-- lines 106-143
example : ShowsLines (doMain (evalRuntime .checked true) [chars! "ripcalc", chars! "--resize", chars! "192.168.2.0/24", chars! "255.255.255.192"]) 0
    [chars! "Original network:",
      chars! "Network:   192.168.2.0/24       11000000.10101000.00000010.00000000",
      chars! "HostMin:   192.168.2.1          11000000.10101000.00000010.00000001",
      chars! "HostMax:   192.168.2.254        11000000.10101000.00000010.11111110",
      chars! "Broadcast: 192.168.2.255        11000000.10101000.00000010.11111111",
      chars! "Hosts/Net: 254                  Class C",
      [],
      chars! "Subnet 1:",
      chars! "Network:   192.168.2.0/26       11000000.10101000.00000010.00000000",
      chars! "HostMin:   192.168.2.1          11000000.10101000.00000010.00000001",
      chars! "HostMax:   192.168.2.62         11000000.10101000.00000010.00111110",
      chars! "Broadcast: 192.168.2.63         11000000.10101000.00000010.00111111",
      chars! "Hosts/Net: 62                   Class C",
      [],
      chars! "Subnet 2:",
      chars! "Network:   192.168.2.64/26      11000000.10101000.00000010.01000000",
      chars! "HostMin:   192.168.2.65         11000000.10101000.00000010.01000001",
      chars! "HostMax:   192.168.2.126        11000000.10101000.00000010.01111110",
      chars! "Broadcast: 192.168.2.127        11000000.10101000.00000010.01111111",
      chars! "Hosts/Net: 62                   Class C",
      [],
      chars! "Subnet 3:",
      chars! "Network:   192.168.2.128/26     11000000.10101000.00000010.10000000",
      chars! "HostMin:   192.168.2.129        11000000.10101000.00000010.10000001",
      chars! "HostMax:   192.168.2.190        11000000.10101000.00000010.10111110",
      chars! "Broadcast: 192.168.2.191        11000000.10101000.00000010.10111111",
      chars! "Hosts/Net: 62                   Class C",
      [],
      chars! "Subnet 4:",
      chars! "Network:   192.168.2.192/26     11000000.10101000.00000010.11000000",
      chars! "HostMin:   192.168.2.193        11000000.10101000.00000010.11000001",
      chars! "HostMax:   192.168.2.254        11000000.10101000.00000010.11111110",
      chars! "Broadcast: 192.168.2.255        11000000.10101000.00000010.11111111",
      chars! "Hosts/Net: 62                   Class C",
      [],
      []] :=
  (doMainE_approx 1000 _ _).shows (by decide +kernel)

-- lines 150-169
example : ShowsLines (doMain (evalRuntime .checked true) [chars! "ripcalc", chars! "--enumerate", chars! "192.168.2.0/28"]) 0
    [chars! "192.168.2.0",
      chars! "192.168.2.1",
      chars! "192.168.2.2",
      chars! "192.168.2.3",
      chars! "192.168.2.4",
      chars! "192.168.2.5",
      chars! "192.168.2.6",
      chars! "192.168.2.7",
      chars! "192.168.2.8",
      chars! "192.168.2.9",
      chars! "192.168.2.10",
      chars! "192.168.2.11",
      chars! "192.168.2.12",
      chars! "192.168.2.13",
      chars! "192.168.2.14",
      chars! "192.168.2.15",
      []] :=
  (doMainE_approx 1000 _ _).shows (by decide +kernel)

-- lines 179-198
example : ShowsLines (doMain (evalRuntime .checked true) [chars! "ripcalc", chars! "--enumerate", chars! "192.168.0.2/255.255.240.255"]) 0
    [chars! "192.168.0.2",
      chars! "192.168.1.2",
      chars! "192.168.2.2",
      chars! "192.168.3.2",
      chars! "192.168.4.2",
      chars! "192.168.5.2",
      chars! "192.168.6.2",
      chars! "192.168.7.2",
      chars! "192.168.8.2",
      chars! "192.168.9.2",
      chars! "192.168.10.2",
      chars! "192.168.11.2",
      chars! "192.168.12.2",
      chars! "192.168.13.2",
      chars! "192.168.14.2",
      chars! "192.168.15.2",
      []] :=
  (doMainE_approx 1000 _ _).shows (by decide +kernel)

end Ripcalc.Conformance

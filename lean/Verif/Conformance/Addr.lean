import Verif.Conformance.Basic
/-!
# The unit tests of `/repo/src/addr.rs`, run on the model

Written by `tools/gen_conformance.py`.  These are tests of the model on literals, not proofs of properties.
-/
set_option maxRecDepth 100000
namespace Ripcalc.Conformance
open Ripcalc

-- lines 615
example : IpAddr.display (⟨0x00000000#32⟩ : V4) = chars! "0.0.0.0" :=
  by decide +kernel

-- lines 616
example : IpAddr.display (⟨0xFFFFFFFF#32⟩ : V4) = chars! "255.255.255.255" :=
  by decide +kernel

-- lines 617
example : IpAddr.display (⟨0x12345678#32⟩ : V4) = chars! "18.52.86.120" :=
  by decide +kernel

-- lines 618
example : IpAddr.display (⟨0x7F000001#32⟩ : V4) = chars! "127.0.0.1" :=
  by decide +kernel

-- lines 627
example : V4.parse (chars! "0.0.0.0") = (.ok (⟨0x00000000#32⟩ : V4)) :=
  by decide +kernel

-- lines 628
example : V4.parse (chars! "00.000.00000.0") = (.ok (⟨0x00000000#32⟩ : V4)) :=
  by decide +kernel

-- lines 629
example : V4.parse (chars! "1.2.3.4") = (.ok (⟨0x01020304#32⟩ : V4)) :=
  by decide +kernel

-- lines 630
example : V4.parse (chars! "01.002.00003.4") = (.ok (⟨0x01020304#32⟩ : V4)) :=
  by decide +kernel

-- lines 631
example : V4.parse (chars! "255.255.255.255") = (.ok (⟨0xFFFFFFFF#32⟩ : V4)) :=
  by decide +kernel

-- lines 632
example : V4.parse (chars! "18.52.86.120") = (.ok (⟨0x12345678#32⟩ : V4)) :=
  by decide +kernel

-- lines 633
example : V4.parse (chars! "127.0.0.1") = (.ok (⟨0x7F000001#32⟩ : V4)) :=
  by decide +kernel

-- lines 635
example : V4.parse (chars! ".") = (.error (.incorrectChunkCount 2 4)) :=
  by decide +kernel

-- lines 636
example : V4.parse (chars! "1.2.3") = (.error (.incorrectChunkCount 3 4)) :=
  by decide +kernel

-- lines 637
example : V4.parse (chars! "1.2.3.4.5") = (.error (.incorrectChunkCount 5 4)) :=
  by decide +kernel

-- lines 638-640
example : ∃ e, V4.parse (chars! "1.2.-3.4") = (.error (.chunkParseError 2 (chars! "-3") e)) :=
  ⟨.invalidDigit, by decide +kernel⟩

-- lines 644
example : V4.parse (chars! "255.256.255.255") = (.error (.chunkOutOfRange 1 256 0 255)) :=
  by decide +kernel

-- lines 645-647
example : ∃ e, V4.parse (chars! "0xFF.256.255.255") = (.error (.chunkParseError 0 (chars! "0xFF") e)) :=
  ⟨.invalidDigit, by decide +kernel⟩

-- lines 653
example : IpAddr.toBytes (⟨0x00000000#32⟩ : V4) = [0#8, 0#8, 0#8, 0#8] :=
  by decide +kernel

-- lines 654
example : IpAddr.toBytes (⟨0x01020304#32⟩ : V4) = [1#8, 2#8, 3#8, 4#8] :=
  by decide +kernel

-- lines 655
example : IpAddr.toBytes (⟨0xFFFFFFFF#32⟩ : V4) = [255#8, 255#8, 255#8, 255#8] :=
  by decide +kernel

-- lines 656
example : IpAddr.toBytes (⟨0x12345678#32⟩ : V4) = [18#8, 52#8, 86#8, 120#8] :=
  by decide +kernel

-- lines 657
example : IpAddr.toBytes (⟨0x7F000001#32⟩ : V4) = [127#8, 0#8, 0#8, 1#8] :=
  by decide +kernel

-- lines 662
example : (IpAddr.fromBytes [0#8, 0#8, 0#8, 0#8] : Option V4) = (some (⟨0x00000000#32⟩ : V4)) :=
  by decide +kernel

-- lines 663
example : (IpAddr.fromBytes [1#8, 2#8, 3#8, 4#8] : Option V4) = (some (⟨0x01020304#32⟩ : V4)) :=
  by decide +kernel

-- lines 664
example : (IpAddr.fromBytes [255#8, 255#8, 255#8, 255#8] : Option V4) = (some (⟨0xFFFFFFFF#32⟩ : V4)) :=
  by decide +kernel

-- lines 665
example : (IpAddr.fromBytes [18#8, 52#8, 86#8, 120#8] : Option V4) = (some (⟨0x12345678#32⟩ : V4)) :=
  by decide +kernel

-- lines 666
example : (IpAddr.fromBytes [127#8, 0#8, 0#8, 1#8] : Option V4) = (some (⟨0x7F000001#32⟩ : V4)) :=
  by decide +kernel

-- lines 668
example : (IpAddr.fromBytes [1#8, 2#8, 3#8] : Option V4) = none :=
  by decide +kernel

-- lines 669
example : (IpAddr.fromBytes [1#8, 2#8, 3#8, 4#8, 5#8] : Option V4) = none :=
  by decide +kernel

-- lines 681
example : (⟨0x00000000#32⟩ : V4) = (⟨0x00000000#32⟩ : V4) :=
  by decide +kernel

-- lines 682
example : (⟨0xFFFFFFFF#32⟩ : V4) = (⟨0xFFFFFFFF#32⟩ : V4) :=
  by decide +kernel

-- lines 683
example : (⟨0x7F000001#32⟩ : V4) = (⟨0x7F000001#32⟩ : V4) :=
  by decide +kernel

-- lines 684
example : (⟨0x7F1234AB#32⟩ : V4) = (⟨0x7F1234AB#32⟩ : V4) :=
  by decide +kernel

-- lines 697
example : (⟨0x7F000000#32⟩ : V4) = IpAddr.and (⟨0x7F000001#32⟩ : V4) (⟨0xFF000000#32⟩ : V4) :=
  by decide +kernel

-- lines 698
example : (⟨0xC0A8A900#32⟩ : V4) = IpAddr.and (⟨0xC0A8A917#32⟩ : V4) (⟨0xFFFFFF00#32⟩ : V4) :=
  by decide +kernel

-- lines 703
example : IpAddr.display (⟨0x0#64, 0x0#64⟩ : V6) = chars! "::" :=
  by decide +kernel

-- lines 704
example : IpAddr.display (⟨0x0#64, 0x1#64⟩ : V6) = chars! "::1" :=
  by decide +kernel

-- lines 705
example : IpAddr.display (⟨0x0000000000000000#64, 0x0000000001234567#64⟩ : V6) = chars! "::123:4567" :=
  by decide +kernel

-- lines 706
example : IpAddr.display (⟨0x0012003400000000#64, 0x0000000000000000#64⟩ : V6) = chars! "12:34::" :=
  by decide +kernel

-- lines 707
example : IpAddr.display (⟨0xABCD012300000000#64, 0x0000000000000256#64⟩ : V6) = chars! "abcd:123::256" :=
  by decide +kernel

-- lines 708
example : IpAddr.display (⟨0xABCD000000000000#64, 0x0000000001230256#64⟩ : V6) = chars! "abcd::123:256" :=
  by decide +kernel

-- lines 709
example : IpAddr.display (⟨0xFFFFFFFFFFFFFFFF#64, 0xFFFFFFFFFFFFFFFF#64⟩ : V6) = chars! "ffff:ffff:ffff:ffff:ffff:ffff:ffff:ffff" :=
  by decide +kernel

-- lines 710
example : IpAddr.display (⟨0xFEC0ABCD1234DEFA#64, 0x1337800812242323#64⟩ : V6) = chars! "fec0:abcd:1234:defa:1337:8008:1224:2323" :=
  by decide +kernel

-- lines 720
example : V6.parse (chars! "0000:0000:0000:0000:0000:0000:0000:0000") = .ok (.ok (⟨0x0000000000000000#64, 0x0000000000000000#64⟩ : V6)) :=
  by decide +kernel

-- lines 721
example : V6.parse (chars! "0:0:0:0:0:0:0:0") = .ok (.ok (⟨0x0000000000000000#64, 0x0000000000000000#64⟩ : V6)) :=
  by decide +kernel

-- lines 722
example : V6.parse (chars! "::") = .ok (.ok (⟨0x0000000000000000#64, 0x0000000000000000#64⟩ : V6)) :=
  by decide +kernel

-- lines 723
example : V6.parse (chars! "0:00:000:0000:000:0:0000:00") = .ok (.ok (⟨0x0000000000000000#64, 0x0000000000000000#64⟩ : V6)) :=
  by decide +kernel

-- lines 724
example : V6.parse (chars! "0:00:000::0:0000:00") = .ok (.ok (⟨0x0000000000000000#64, 0x0000000000000000#64⟩ : V6)) :=
  by decide +kernel

-- lines 726
example : V6.parse (chars! "0000:0000:0000:0000:0000:0000:0000:0001") = .ok (.ok (⟨0x0000000000000000#64, 0x0000000000000001#64⟩ : V6)) :=
  by decide +kernel

-- lines 727
example : V6.parse (chars! "0:0:0:0:0:0:0:1") = .ok (.ok (⟨0x0000000000000000#64, 0x0000000000000001#64⟩ : V6)) :=
  by decide +kernel

-- lines 728
example : V6.parse (chars! "::1") = .ok (.ok (⟨0x0000000000000000#64, 0x0000000000000001#64⟩ : V6)) :=
  by decide +kernel

-- lines 729
example : V6.parse (chars! "0:00:000:0000:000:0:0000:01") = .ok (.ok (⟨0x0000000000000000#64, 0x0000000000000001#64⟩ : V6)) :=
  by decide +kernel

-- lines 730
example : V6.parse (chars! "0:00:000::0:0000:01") = .ok (.ok (⟨0x0000000000000000#64, 0x0000000000000001#64⟩ : V6)) :=
  by decide +kernel

-- lines 732
example : V6.parse (chars! "fe80:0000:0000:0000:a55e:55ed:0b50:1e7e") = .ok (.ok (⟨0xFE80000000000000#64, 0xA55E55ED0B501E7E#64⟩ : V6)) :=
  by decide +kernel

-- lines 733
example : V6.parse (chars! "fe80:0:0:0:a55e:55ed:b50:1e7e") = .ok (.ok (⟨0xFE80000000000000#64, 0xA55E55ED0B501E7E#64⟩ : V6)) :=
  by decide +kernel

-- lines 734
example : V6.parse (chars! "fe80::a55e:55ed:0b50:1e7e") = .ok (.ok (⟨0xFE80000000000000#64, 0xA55E55ED0B501E7E#64⟩ : V6)) :=
  by decide +kernel

-- lines 735
example : V6.parse (chars! "fe80::a55e:55ed:b50:1e7e") = .ok (.ok (⟨0xFE80000000000000#64, 0xA55E55ED0B501E7E#64⟩ : V6)) :=
  by decide +kernel

-- lines 741
example : V6.parse (chars! ":") = .ok (.error (.incorrectChunkCount 2 8)) :=
  by decide +kernel

-- lines 742
example : V6.parse (chars! "a:") = .ok (.error (.incorrectChunkCount 2 8)) :=
  by decide +kernel

-- lines 743
example : V6.parse (chars! ":a") = .ok (.error (.incorrectChunkCount 2 8)) :=
  by decide +kernel

-- lines 744
example : V6.parse (chars! ":::") = .ok (.error (.tooManyShorteningElements 2 1)) :=
  by decide +kernel

-- lines 745
example : V6.parse (chars! "fe80::a55e:55ed::0b50:1e7e") = .ok (.error (.tooManyShorteningElements 2 1)) :=
  by decide +kernel

-- lines 746-748
example : ∃ e, V6.parse (chars! "fe80::a55e:55ed:0b50:1ete") = .ok (.error (.chunkParseError 7 (chars! "1ete") e)) :=
  ⟨.invalidDigit, by decide +kernel⟩

-- lines 760
example : IpAddr.toBytes (⟨0x0000000000000000#64, 0x0000000000000000#64⟩ : V6) = [0x00#8, 0x00#8, 0x00#8, 0x00#8, 0x00#8, 0x00#8, 0x00#8, 0x00#8, 0x00#8, 0x00#8, 0x00#8, 0x00#8, 0x00#8, 0x00#8, 0x00#8, 0x00#8] :=
  by decide +kernel

-- lines 761
example : IpAddr.toBytes (⟨0x0000000000000000#64, 0x0000000000000001#64⟩ : V6) = [0x00#8, 0x00#8, 0x00#8, 0x00#8, 0x00#8, 0x00#8, 0x00#8, 0x00#8, 0x00#8, 0x00#8, 0x00#8, 0x00#8, 0x00#8, 0x00#8, 0x00#8, 0x01#8] :=
  by decide +kernel

-- lines 762
example : IpAddr.toBytes (⟨0xFE80000000000000#64, 0xA55E55ED0B501E7E#64⟩ : V6) = [0xFE#8, 0x80#8, 0x00#8, 0x00#8, 0x00#8, 0x00#8, 0x00#8, 0x00#8, 0xA5#8, 0x5E#8, 0x55#8, 0xED#8, 0x0B#8, 0x50#8, 0x1E#8, 0x7E#8] :=
  by decide +kernel

-- lines 763
example : IpAddr.toBytes (⟨0x123456789ABCDEF0#64, 0xFEDCBA9876543210#64⟩ : V6) = [0x12#8, 0x34#8, 0x56#8, 0x78#8, 0x9A#8, 0xBC#8, 0xDE#8, 0xF0#8, 0xFE#8, 0xDC#8, 0xBA#8, 0x98#8, 0x76#8, 0x54#8, 0x32#8, 0x10#8] :=
  by decide +kernel

-- lines 773
example : (IpAddr.fromBytes [0x00#8, 0x00#8, 0x00#8, 0x00#8, 0x00#8, 0x00#8, 0x00#8, 0x00#8, 0x00#8, 0x00#8, 0x00#8, 0x00#8, 0x00#8, 0x00#8, 0x00#8, 0x00#8] : Option V6) = some (⟨0x0000000000000000#64, 0x0000000000000000#64⟩ : V6) :=
  by decide +kernel

-- lines 774
example : (IpAddr.fromBytes [0x00#8, 0x00#8, 0x00#8, 0x00#8, 0x00#8, 0x00#8, 0x00#8, 0x00#8, 0x00#8, 0x00#8, 0x00#8, 0x00#8, 0x00#8, 0x00#8, 0x00#8, 0x01#8] : Option V6) = some (⟨0x0000000000000000#64, 0x0000000000000001#64⟩ : V6) :=
  by decide +kernel

-- lines 775
example : (IpAddr.fromBytes [0xFE#8, 0x80#8, 0x00#8, 0x00#8, 0x00#8, 0x00#8, 0x00#8, 0x00#8, 0xA5#8, 0x5E#8, 0x55#8, 0xED#8, 0x0B#8, 0x50#8, 0x1E#8, 0x7E#8] : Option V6) = some (⟨0xFE80000000000000#64, 0xA55E55ED0B501E7E#64⟩ : V6) :=
  by decide +kernel

-- lines 776
example : (IpAddr.fromBytes [0x12#8, 0x34#8, 0x56#8, 0x78#8, 0x9A#8, 0xBC#8, 0xDE#8, 0xF0#8, 0xFE#8, 0xDC#8, 0xBA#8, 0x98#8, 0x76#8, 0x54#8, 0x32#8, 0x10#8] : Option V6) = some (⟨0x123456789ABCDEF0#64, 0xFEDCBA9876543210#64⟩ : V6) :=
  by decide +kernel

-- lines 778
example : (IpAddr.fromBytes [0xFE#8, 0x80#8, 0x00#8, 0x00#8, 0x00#8, 0x00#8, 0x00#8, 0x00#8, 0xA5#8, 0x5E#8, 0x55#8, 0xED#8, 0x0B#8, 0x50#8, 0x1E#8] : Option V6) = none :=
  by decide +kernel

-- lines 779
example : (IpAddr.fromBytes [0xFE#8, 0x80#8, 0x00#8, 0x00#8, 0x00#8, 0x00#8, 0x00#8, 0x00#8, 0xA5#8, 0x5E#8, 0x55#8, 0xED#8, 0x0B#8, 0x50#8, 0x1E#8, 0x7E#8, 0x99#8] : Option V6) = none :=
  by decide +kernel

-- lines 791
example : (⟨0x0000000000000000#64, 0x0000000000000000#64⟩ : V6) = (⟨0x0000000000000000#64, 0x0000000000000000#64⟩ : V6) :=
  by decide +kernel

-- lines 792
example : (⟨0x0000000000000000#64, 0x0000000000000001#64⟩ : V6) = (⟨0x0000000000000000#64, 0x0000000000000001#64⟩ : V6) :=
  by decide +kernel

-- lines 793
example : (⟨0xFE80000000000000#64, 0xA55E55ED0B501E7E#64⟩ : V6) = (⟨0xFE80000000000000#64, 0xA55E55ED0B501E7E#64⟩ : V6) :=
  by decide +kernel

-- lines 794
example : (⟨0x123456789ABCDEF0#64, 0xFEDCBA9876543210#64⟩ : V6) = (⟨0x123456789ABCDEF0#64, 0xFEDCBA9876543210#64⟩ : V6) :=
  by decide +kernel

-- lines 807
example : (⟨0x1214121812141210#64, 0x1214121812141210#64⟩ : V6) = IpAddr.and (⟨0x123456789ABCDEF0#64, 0xFEDCBA9876543210#64⟩ : V6) (⟨0xFEDCBA9876543210#64, 0x123456789ABCDEF0#64⟩ : V6) :=
  by decide +kernel

end Ripcalc.Conformance

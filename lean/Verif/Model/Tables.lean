import Verif.Model.Bitfield

/-!
# The enumerations generated by `bitfield_enum!` in `decode/src/ident.rs` and `decode/src/datapath.rs`

Each table lists the code and display text of each named variant in source order, then the catch-all variants with
their patterns, in source order.
-/

namespace Xcvr

/-- `ident.rs` 18-63 `Identifier`. -/
def identifierTable : BitfieldEnum where
  variants := [
    (0x00, chars!"Unknown", chars!"Unknown"),
    (0x01, chars!"Gbic", chars!"GBIC"),
    (0x02, chars!"Soldered", chars!"Soldered"),
    (0x03, chars!"Sfp", chars!"SFP/SFP+/SFP28 (SFF-8472)"),
    (0x04, chars!"Xbi", chars!"XBI"),
    (0x05, chars!"Xenpak", chars!"XENPAK"),
    (0x06, chars!"Xfp", chars!"XFP"),
    (0x07, chars!"Xff", chars!"XFF"),
    (0x08, chars!"XffE", chars!"XFP-E"),
    (0x09, chars!"Xpak", chars!"XPAK"),
    (0x0a, chars!"X2", chars!"X2"),
    (0x0b, chars!"DwdmSfp", chars!"DWDM-SFP/SFP+"),
    (0x0c, chars!"Qsfp", chars!"QSFP (INF-8438)"),
    (0x0d, chars!"QsfpPlusSff8636", chars!"QSFP+ (SFF-8636)"),
    (0x0e, chars!"Cxp", chars!"CXP"),
    (0x0f, chars!"ShieldedMultiLane4", chars!"Shielded mini multi-lane 4X"),
    (0x10, chars!"ShieldedMultiLane8", chars!"Shielded mini multi-lane 8X"),
    (0x11, chars!"Qsfp28", chars!"QSFP28 (SFF-8636)"),
    (0x12, chars!"Cxp2", chars!"CXP2"),
    (0x13, chars!"Cdfp", chars!"CDFP (Style 1 or 2)"),
    (0x14, chars!"ShieldedMultiLane4Fanout", chars!"Shielded mini multi-lane 4X fanout"),
    (0x15, chars!"ShieldedMultiLane8Fanout", chars!"Shielded mini multi-lane 8X fanout"),
    (0x16, chars!"Cdfp3", chars!"CDFP (Style 3)"),
    (0x17, chars!"MicroQsfp", chars!"MicroQSFP"),
    (0x18, chars!"QsfpDD", chars!"QSFP-DD 8X Pluggable"),
    (0x19, chars!"Qsfp8", chars!"QSFP 8X Pluggable"),
    (0x1a, chars!"SfpDD", chars!"SFP-DD 2X Double Density Pluggable"),
    (0x1b, chars!"Dsfp", chars!"DSFP Dual Small Form Factor Pluggable"),
    (0x1c, chars!"X4MultiLink", chars!"x4 MiniLink/OcuLink"),
    (0x1d, chars!"X8MiniLink", chars!"x8 MiniLink"),
    (0x1e, chars!"QsfpPlusCmis", chars!"QSFP+ (CMIS)")
  ]
  others := [
    ⟨chars!"Reserved", fun x => (0x21 ≤ x && x ≤ 0x7f)⟩,
    ⟨chars!"VendorSpecific", fun x => 0x80 ≤ x⟩,
    ⟨chars!"Unsupported", fun _ => true⟩
  ]

abbrev Identifier := Bf identifierTable

/-- `ident.rs` 312-392 `ExtendedSpecificationComplianceCode`. -/
def extendedSpecificationComplianceCodeTable : BitfieldEnum where
  variants := [
    (0x00, chars!"Unspecified", chars!"Unspecified"),
    (0x01, chars!"Id100GAoc5en5", chars!"100G AOC, retimed or 25GAUI C2M AOC (BER <= 5e-5)"),
    (0x02, chars!"Id100GBaseSr4", chars!"100GBASE-SR4 or 25GBASE-SR"),
    (0x03, chars!"Id100GBaseLr4", chars!"100GBASE-LR4 or 25GBASE-LR"),
    (0x04, chars!"Id100GBaseEr4", chars!"100GBASE-ER4 or 25GBASE-ER"),
    (0x05, chars!"Id100GBaseSr10", chars!"100GBASE-SR10"),
    (0x06, chars!"Id100GBCwdm4", chars!"100G CWDM4"),
    (0x07, chars!"Id100GPsm4", chars!"100G PSM4 Parallel SMF"),
    (0x08, chars!"Id100GAcc", chars!"100G ACC, retimed or 25GAUI C2M ACC"),
    (0x09, chars!"Obsolete", chars!"Obsolete"),
    (0x0b, chars!"Id100GBaseCr4", chars!"100GBASE-CR4, 25GBASE-CR CA-25G-L or 50GBASE-CR2 with RS FEC"),
    (0x0c, chars!"Id25GBaseCrS", chars!"25GBASE-CR CA-25G-S or 50GBASE-CR2 with BASE-R FEC"),
    (0x0d, chars!"Id25GBaseCrN", chars!"25GBASE-CR CA-25G-N or 50GBASE-CR2 with no FEC"),
    (0x0e, chars!"Id10MbEth", chars!"10 Mb/s Single Pair Ethernet"),
    (0x10, chars!"Id40GBaseEr4", chars!"40GBASE-ER4"),
    (0x11, chars!"Id4x10GBaseSr", chars!"4x10GBASE-SR"),
    (0x12, chars!"Id40GPsm4", chars!"40G PSM4 Parallel SMF"),
    (0x13, chars!"IdG959p1i12d1", chars!"G959.1 profile P1I1-2D1"),
    (0x14, chars!"IdG959p1s12d2", chars!"G959.1 profile P1S1-2D2"),
    (0x15, chars!"IdG9592p1l1d1", chars!"G959.1 profile P1L1-2D2"),
    (0x16, chars!"Id10GBaseT", chars!"10GBASE-T with SFI elecrical interface"),
    (0x17, chars!"Id100GClr4", chars!"100G CLR4"),
    (0x18, chars!"Id100GAoc10en12", chars!"100G AOC, retimed or 25GAUI C2M AOC (BER <= 10e-12)"),
    (0x19, chars!"Id100GAcc10en12", chars!"100G ACC, retimed or 25GAUI C2M ACC (BER <= 10e-12)"),
    (0x1a, chars!"Id100GeDwdm2", chars!"100GE-DWDM2"),
    (0x1b, chars!"Id100GWdm", chars!"100G 1550nm WDM"),
    (0x1c, chars!"Id10GBaseTSr", chars!"10GBASE-T Short Reach"),
    (0x1d, chars!"Id5GBaseT", chars!"5GBASE-T"),
    (0x1e, chars!"Id2p5GBaseT", chars!"2.5GBASE-T"),
    (0x1f, chars!"Id40GSwdm4", chars!"40G SWDM4"),
    (0x20, chars!"Id100GSwdm4", chars!"100G SWDM4"),
    (0x21, chars!"Id100GPam4BiDi", chars!"100G PAM4 BiDi"),
    (0x37, chars!"Id10GBaseBr", chars!"10GBASE-BR"),
    (0x38, chars!"Id25GBaseBr", chars!"25GBASE-BR"),
    (0x39, chars!"Id50GBaseBr", chars!"50GBASE-BR"),
    (0x22, chars!"Id4wdm10", chars!"4WDM-10 MSA"),
    (0x23, chars!"Id4wdm20", chars!"4WDM-20 MSA"),
    (0x24, chars!"Id4wdm40", chars!"4WDM-40 MSA"),
    (0x25, chars!"Id100GBaseDr", chars!"100GBASE-DR"),
    (0x26, chars!"Id100GFr", chars!"100G-FR or 100GBASE-FR1, CAUI-4"),
    (0x27, chars!"Id100GLr", chars!"100G-LR or 100GBASE-LR1, CAUI-4"),
    (0x28, chars!"Id100GBaseSr1", chars!"100GBASE-SR1, CAUI-4"),
    (0x3a, chars!"Id100GBaseVr1", chars!"100GBASE-VR1, CAUI-4"),
    (0x29, chars!"Id100GBaseSr12", chars!"100GBASE-SR1, 200GBASE-SR2 or 400GBASE-SR4"),
    (0x36, chars!"Id100GBaseVr12", chars!"100GBASE-VR1, 200GBASE-VR2 or 400GBASE-VR4"),
    (0x2a, chars!"Id100GBaseFr1", chars!"100GBASE-FR1"),
    (0x2b, chars!"Id100GBaseLr1", chars!"100GBASE-LR1"),
    (0x2c, chars!"Id100GLr120Caui4", chars!"100G-LR1-20 MSA, CAUI-4"),
    (0x2d, chars!"Id100GLr130Caui4", chars!"100G-LR1-30 MSA, CAUI-4"),
    (0x2e, chars!"Id100GLr140Caui4", chars!"100G-LR1-40 MSA, CAUI-4"),
    (0x2f, chars!"Id100GLr120", chars!"100G-LR1-20 MSA"),
    (0x34, chars!"Id100GLr130", chars!"100G-LR1-30 MSA"),
    (0x35, chars!"Id100GLr140", chars!"100G-LR1-40 MSA"),
    (0x30, chars!"IdAcc50GAUI10en6", chars!"Active Copper Cable with 50GAUI, 200GAUI-2 or 200GAUI-4 C2M (BER <= 10e-6)"),
    (0x31, chars!"IdAcc50GAUI10en62", chars!"Active Copper Cable with 50GAUI, 200GAUI-2 or 200GAUI-4 C2M (BER <= 10e-6) 2"),
    (0x32, chars!"IdAcc50GAUI2p6en4", chars!"Active Copper Cable with 50GAUI, 200GAUI-2 or 200GAUI-4 C2M (BER <= 2.6e-4 or 10e-5)"),
    (0x33, chars!"IdAcc50GAUI2p6en41", chars!"Active Copper Cable with 50GAUI, 200GAUI-2 or 200GAUI-4 C2M (BER <= 2.6e-4 or 10e-5) 2"),
    (0x3f, chars!"Id100GBaseCr1", chars!"100GBASE-CR1, 200GBASE-CR2 or 400GBASE-CR4"),
    (0x40, chars!"Id50GBaseCr", chars!"50GBASE-CR, 100GBASE-CR2 or 200GBASE-CR4"),
    (0x41, chars!"Id50GBaseSr", chars!"50GBASE-SR, 100GBASE-SR2 or 200GBASE-SR4"),
    (0x42, chars!"Id50GBaseFr", chars!"50GBASE-FR or 200GBASE-DR4"),
    (0x4a, chars!"Id50GBaseEr", chars!"50GBASE-ER"),
    (0x43, chars!"Id200GBaseFr4", chars!"200GBASE-FR4"),
    (0x44, chars!"Id200GPsm4", chars!"200G 1550nm PSM4"),
    (0x45, chars!"Id50GBaseLr", chars!"50GBASE-LR"),
    (0x46, chars!"Id200GBaseLr4", chars!"200GBASE-LR4"),
    (0x47, chars!"Id400GBaseDr4", chars!"400GBASE-DR4"),
    (0x48, chars!"Id400GBaseFr4", chars!"400GBASE-FR4"),
    (0x49, chars!"Id400GBaseLr4", chars!"400GBASE-LR4-6"),
    (0x4b, chars!"Id400GGLr410", chars!"400G-LR4-10"),
    (0x4c, chars!"Id400GBaseZr", chars!"400GBASE-ZR"),
    (0x7f, chars!"Id256GfcSw4", chars!"256GFC-SW4"),
    (0x80, chars!"Id64Gfc", chars!"64GFC"),
    (0x81, chars!"Id128Gfc", chars!"128GFC")
  ]
  others := [
    ⟨chars!"Reserved", fun x => x == 0x0a || x == 0x0f || (0x3b ≤ x && x ≤ 0x3e) || (0x4d ≤ x && x ≤ 0x7e) || (0x82 ≤ x && x ≤ 0xff)⟩
  ]

abbrev ExtendedSpecificationComplianceCode := Bf extendedSpecificationComplianceCodeTable

/-- `ident.rs` 394-453 `HostElectricalInterfaceId`. -/
def hostElectricalInterfaceIdTable : BitfieldEnum where
  variants := [
    (0x00, chars!"Undefined", chars!"Undefined"),
    (0x01, chars!"Id1000BaseCX", chars!"1000BASE-CX"),
    (0x02, chars!"IdXaui", chars!"XAUI"),
    (0x03, chars!"IdXfi", chars!"XFI"),
    (0x04, chars!"IdSfi", chars!"SFI"),
    (0x05, chars!"Id25Gaui", chars!"25GAUI C2M"),
    (0x06, chars!"IdXlaui", chars!"XLAUI C2M"),
    (0x07, chars!"IdXlppi", chars!"XLPPI"),
    (0x08, chars!"IdXlaui2", chars!"LAUI-2 C2M"),
    (0x09, chars!"Id50Gaui2", chars!"50GAUI-2 C2M"),
    (0x0a, chars!"Id50Gaui1", chars!"50GAUI-1 C2M"),
    (0x0b, chars!"IdCaui4", chars!"CAUI-4 C2M"),
    (0x41, chars!"IdCaui4WithoutFec", chars!"CAUI-4 C2M with out FEC"),
    (0x42, chars!"IdCaui4WithRsFec", chars!"CAUI-4 C2M with RS(528, 514) FEC"),
    (0x0c, chars!"Id100GGaui4", chars!"100GAUI-4 C2M"),
    (0x0d, chars!"Id100GGaui2", chars!"100GAUI-2 C2M"),
    (0x4b, chars!"Id100GGaui1S", chars!"100GAUI-1-S C2M"),
    (0x4c, chars!"Id100GGaui1L", chars!"100GAUI-1-L C2M"),
    (0x0e, chars!"Id200GGaui8", chars!"200GAUI-8 C2M"),
    (0x0f, chars!"Id200GGaui4", chars!"200GAUI-4 C2M"),
    (0x4d, chars!"Id200GGaui2S", chars!"200GAUI-2-S C2M"),
    (0x4e, chars!"Id200GGaui2L", chars!"200GAUI-2-L C2M"),
    (0x10, chars!"Id400Gaui16", chars!"400GAUI-16 C2M"),
    (0x11, chars!"Id400Gaui8", chars!"400GAUI-8 C2M"),
    (0x4f, chars!"Id400Gaui4S", chars!"400GAUI-4-S C2M"),
    (0x50, chars!"Id400Gaui4L", chars!"400GAUI-4-L C2M"),
    (0x51, chars!"Id800GS", chars!"800G S C2M"),
    (0x52, chars!"Id800GL", chars!"800G L C2M"),
    (0x13, chars!"Id10GBaseCx4", chars!"10GBASE-CX4"),
    (0x14, chars!"Id25GBaseCrCa25GL", chars!"25GBASE-CR CA-25G-L"),
    (0x15, chars!"Id25GBaseCrS", chars!"25GBASE-CR or 25GBASE-CR-S CA-25G-S"),
    (0x16, chars!"Id25GBaseCrN", chars!"25GBASE-CR or 25GBASE-CR-S CA-25G-N"),
    (0x17, chars!"Id40GBaseCr4", chars!"40GBASE-CR4"),
    (0x43, chars!"Id50GBaseCr2WithRsFec", chars!"50GBASE-CR2 with RS(528, 514) FEC"),
    (0x44, chars!"Id50GBaseCr2WithFirecodeFec", chars!"50GBASE-CR2 with Firecode FEC"),
    (0x45, chars!"Id50GBaseCr2", chars!"50GBASE-CR2 with no FEC"),
    (0x18, chars!"Id50GBaseCr", chars!"50GBASE-CR"),
    (0x19, chars!"Id100GBaseCr10", chars!"100GBASE-CR10"),
    (0x1a, chars!"Id100GBaseCr4", chars!"100GBASE-CR4"),
    (0x1b, chars!"Id100GBaseCr2", chars!"100GBASE-CR2"),
    (0x46, chars!"Id100GBaseCr1", chars!"100GBASE-CR1"),
    (0x1c, chars!"Id200GBaseCr4", chars!"200GBASE-CR4"),
    (0x47, chars!"Id200GBaseCr2", chars!"200GBASE-CR2"),
    (0x1d, chars!"Id400GCr8", chars!"400G CR8"),
    (0x48, chars!"Id400GBaseCr4", chars!"400GBASE-CR4"),
    (0x49, chars!"Id800GEtcCr8", chars!"800G-ETC-CR8"),
    (0xff, chars!"EndOfList", chars!"End of list")
  ]
  others := [
    ⟨chars!"Reserved", fun x => x == 0x12 || (0x30 ≤ x && x ≤ 0x36) || (0x54 ≤ x && x ≤ 0xbf)⟩,
    ⟨chars!"Custom", fun x => (0xce ≤ x && x ≤ 0xfe)⟩,
    ⟨chars!"Other", fun _ => true⟩
  ]

abbrev HostElectricalInterfaceId := Bf hostElectricalInterfaceIdTable

/-- `ident.rs` 455-474 `MediaType`. -/
def mediaTypeTable : BitfieldEnum where
  variants := [
    (0x00, chars!"Undefined", chars!"Undefined"),
    (0x01, chars!"MultiModeFiber", chars!"Multi-mode fiber"),
    (0x02, chars!"SingleModeFiber", chars!"Single-mode fiber"),
    (0x03, chars!"PassiveCopper", chars!"Passive copper"),
    (0x04, chars!"ActiveCable", chars!"Active cable"),
    (0x05, chars!"BaseT", chars!"BASE-T")
  ]
  others := [
    ⟨chars!"Custom", fun x => (0x40 ≤ x && x ≤ 0x8f)⟩,
    ⟨chars!"Reserved", fun _ => true⟩
  ]

abbrev MediaType := Bf mediaTypeTable

/-- `ident.rs` 522-555 `MmfMediaInterfaceId`. -/
def mmfMediaInterfaceIdTable : BitfieldEnum where
  variants := [
    (0x00, chars!"Undefined", chars!"Undefined"),
    (0x01, chars!"Id10GBaseSw", chars!"10GBASE-SW"),
    (0x02, chars!"Id10GBaseSr", chars!"10GBASE-SR"),
    (0x03, chars!"Id25GBaseSr", chars!"25GBASE-SR"),
    (0x04, chars!"Id40GBaseSr3", chars!"40GBASE-SR4"),
    (0x05, chars!"Id40GESwdm4", chars!"40GE SWDM4"),
    (0x06, chars!"Id40GEBiDi", chars!"40GE BiDi"),
    (0x07, chars!"Id50GBaseSr", chars!"50GBASE-SR"),
    (0x08, chars!"Id100GBaseSr10", chars!"100GBASE-SR10"),
    (0x09, chars!"Id100GBaseSr4", chars!"100GBASE-SR4"),
    (0x0a, chars!"Id100GBaseSwdm4", chars!"100GE SWDM4"),
    (0x0b, chars!"Id100GEBiDi", chars!"100GE BiDi"),
    (0x0c, chars!"Id100GBaseSr2", chars!"100GBASE-SR2"),
    (0x0d, chars!"Id100GBaseSr1", chars!"100GBASE-SR1"),
    (0x1d, chars!"Id100GBaseVr1", chars!"100GBASE-VR1"),
    (0x0e, chars!"Id200GBaseSr4", chars!"200GBASE-SR4"),
    (0x1b, chars!"Id200GBaseSr2", chars!"200GBASE-SR2"),
    (0x1e, chars!"Id200GBaseVr2", chars!"200GBASE-VR2"),
    (0x0f, chars!"Id400GBaseSr16", chars!"400GBASE-SR16"),
    (0x10, chars!"Id400GBaseSr8", chars!"400GBASE-SR8"),
    (0x11, chars!"Id400GBaseSr4", chars!"400GBASE-SR4"),
    (0x1f, chars!"Id400GBaseVr4", chars!"400GBASE-VR4"),
    (0x12, chars!"Id800GBaseSr8", chars!"800GBASE-SR8"),
    (0x20, chars!"Id800GBaseVr8", chars!"800GBASE-VR8"),
    (0x1a, chars!"Id400GBaseSr42", chars!"400GBASE-SR4.2")
  ]
  others := [
    ⟨chars!"Reserved", fun _ => true⟩
  ]

abbrev MmfMediaInterfaceId := Bf mmfMediaInterfaceIdTable

/-- `ident.rs` 557-612 `SmfMediaInterfaceId`. -/
def smfMediaInterfaceIdTable : BitfieldEnum where
  variants := [
    (0x00, chars!"Undefined", chars!"Undefined"),
    (0x01, chars!"Id10GBaseLw", chars!"10GBASE-LW"),
    (0x02, chars!"Id10GBaseEw", chars!"10GBASE-EW"),
    (0x03, chars!"Id10GZw", chars!"10G-ZW"),
    (0x04, chars!"Id10GBaseLr", chars!"10GBASE-LR"),
    (0x05, chars!"Id10GBaseEr", chars!"10GBASE-ER"),
    (0x4e, chars!"Id10GBaseBr", chars!"10GBASE-BR"),
    (0x06, chars!"Id10GZr", chars!"10G-ZR"),
    (0x07, chars!"Id25GBaseLr", chars!"25GBASE-LR"),
    (0x08, chars!"Id25GBaseEr", chars!"25GBASE-ER"),
    (0x4f, chars!"Id25GBaseBr", chars!"25GBASE-BR"),
    (0x09, chars!"Id40GBaseLr4", chars!"40GBASE-LR4"),
    (0x0a, chars!"Id40GBaseFr", chars!"40GBASE-FR"),
    (0x0b, chars!"Id50GBaseFr", chars!"50GBASE-FR"),
    (0x0c, chars!"Id50GBaseLr", chars!"50GBASE-LR"),
    (0x40, chars!"Id50GBaseEr", chars!"50GBASE-ER"),
    (0x50, chars!"Id50GBaseBr", chars!"50GBASE-BR"),
    (0x0d, chars!"Id100GBaseLr4", chars!"100GBASE-LR4"),
    (0x0e, chars!"Id100GBaseEr4", chars!"100GBASE-ER4"),
    (0x0f, chars!"Id100GPsm4", chars!"100G PSM4"),
    (0x34, chars!"Id100GCwdm4Ocp", chars!"100G CWDM4-OCP"),
    (0x10, chars!"Id100GCwdm4", chars!"100G CWDM4"),
    (0x11, chars!"Id100G4wdm10", chars!"100G 4WDM-10"),
    (0x12, chars!"Id100G4wdm20", chars!"100G 4WDM-20"),
    (0x13, chars!"Id100G4wdm40", chars!"100G 4WDM-40"),
    (0x14, chars!"Id100GBaseDr", chars!"100GBASE-DR"),
    (0x15, chars!"Id100GFr", chars!"100G-FR / 100GBASE-FR1"),
    (0x16, chars!"Id100GLr", chars!"100G-LR / 100GBASE-LR1"),
    (0x4a, chars!"Id100GLr120", chars!"100G-LR1-20"),
    (0x4b, chars!"Id100GEr130", chars!"100G-ER1-30"),
    (0x4c, chars!"Id100GEr140", chars!"100G-ER1-40"),
    (0x44, chars!"Id100GBaseZr", chars!"100GBASE-ZR"),
    (0x17, chars!"Id200GBaseDr4", chars!"200GBASE-DR4"),
    (0x18, chars!"Id200GBaseFr4", chars!"200GBASE-FR4"),
    (0x19, chars!"Id200GBaseLr4", chars!"200GBASE-LR4"),
    (0x41, chars!"Id200GBaseEr4", chars!"200GBASE-ER4"),
    (0x1a, chars!"Id400GBaseFr8", chars!"400GBASE-FR8"),
    (0x1b, chars!"Id400GBaseLr8", chars!"400GBASE-LR8"),
    (0x42, chars!"Id400GBaseEr8", chars!"400GBASE-ER8"),
    (0x1c, chars!"Id400GBaseDr4", chars!"400GBASE-DR4"),
    (0x55, chars!"Id400GBaseDr42", chars!"400GBASE-DR4-2"),
    (0x1d, chars!"Id400GFr4", chars!"400G-FR4 / 400GBASE-FR4"),
    (0x43, chars!"Id400GBaseLr46", chars!"400GBASE-LR4-6"),
    (0x1e, chars!"Id400GLr410", chars!"400G-LR4-10"),
    (0x4d, chars!"Id400GBaseZr", chars!"400GBASE-ZR"),
    (0x56, chars!"Id800GBaseDr8", chars!"800GBASE-DR8"),
    (0x57, chars!"Id800GBaseDr82", chars!"800GBASE-DR8-2")
  ]
  others := [
    ⟨chars!"Reserved", fun _ => true⟩
  ]

abbrev SmfMediaInterfaceId := Bf smfMediaInterfaceIdTable

/-- `ident.rs` 614-625 `PassiveCopperMediaInterfaceId`. -/
def passiveCopperMediaInterfaceIdTable : BitfieldEnum where
  variants := [
    (0x00, chars!"Undefined", chars!"Undefined"),
    (0x01, chars!"CopperCable", chars!"Copper cable"),
    (0xbf, chars!"PassiveLoopback", chars!"Passive loopback")
  ]
  others := [
    ⟨chars!"Custom", fun x => (0xc0 ≤ x && x ≤ 0xff)⟩,
    ⟨chars!"Reserved", fun x => (0x02 ≤ x && x ≤ 0xbf)⟩
  ]

abbrev PassiveCopperMediaInterfaceId := Bf passiveCopperMediaInterfaceIdTable

/-- `ident.rs` 627-641 `ActiveCableMediaInterfaceId`. -/
def activeCableMediaInterfaceIdTable : BitfieldEnum where
  variants := [
    (0x00, chars!"Undefined", chars!"Undefined"),
    (0x01, chars!"ActiveWithBer1en12", chars!"Active Cable assembly with BER < 1e-12"),
    (0x02, chars!"ActiveWithBer5en5", chars!"Active Cable assembly with BER < 5e-5"),
    (0x03, chars!"ActiveWithBer2p6en4", chars!"Active Cable assembly with BER < 2.6e-4"),
    (0x04, chars!"ActiveWithBer10en6", chars!"Active Cable assembly with BER < 10e-6"),
    (0xbf, chars!"ActiveLoopback", chars!"Active loopback")
  ]
  others := [
    ⟨chars!"Reserved", fun x => (0x05 ≤ x && x ≤ 0xbe)⟩,
    ⟨chars!"Custom", fun x => (0xc0 ≤ x && x ≤ 0xff)⟩
  ]

abbrev ActiveCableMediaInterfaceId := Bf activeCableMediaInterfaceIdTable

/-- `ident.rs` 643-659 `BaseTMediaInterfaceId`. -/
def baseTMediaInterfaceIdTable : BitfieldEnum where
  variants := [
    (0x00, chars!"Undefined", chars!"Undefined"),
    (0x01, chars!"Id1000BaseT", chars!"1000BASE-T"),
    (0x02, chars!"Id2p5GBaseT", chars!"2.5GBASE-T"),
    (0x03, chars!"Id5GBaseT", chars!"5GBASE-T"),
    (0x04, chars!"Id10GBaseT", chars!"10GBASE-T"),
    (0x05, chars!"Id25GBaseT", chars!"25GBASE-T"),
    (0x06, chars!"Id40GBaseT", chars!"40GBASE-T"),
    (0x07, chars!"Id50GBaseT", chars!"50GBASE-T")
  ]
  others := [
    ⟨chars!"Custom", fun x => (0xc0 ≤ x && x ≤ 0xff)⟩,
    ⟨chars!"Reserved", fun x => (0x08 ≤ x && x ≤ 0xbf)⟩
  ]

abbrev BaseTMediaInterfaceId := Bf baseTMediaInterfaceIdTable

/-- `datapath.rs` 66-87 `ConnectorType`. -/
def connectorTypeTable : BitfieldEnum where
  variants := [
    (0x00, chars!"Unknown", chars!"Unknown or unspecified"),
    (0x01, chars!"SubscriberConnector", chars!"Subscriber Connector (SC)"),
    (0x07, chars!"LucentConnector", chars!"Lucent Connector (LC)"),
    (0x0c, chars!"Mpo1x12", chars!"MPO 1x12"),
    (0x0d, chars!"Mpo2x16", chars!"MPO 2x16"),
    (0x22, chars!"Rj45", chars!"RJ-45"),
    (0x23, chars!"NoSeparableConnector", chars!"No separable connector"),
    (0x27, chars!"Mpo2x12", chars!"MPO 2x12"),
    (0x28, chars!"Mpo1x16", chars!"MPO 1x16")
  ]
  others := [
    ⟨chars!"Reserved", fun x => (0x0e ≤ x && x ≤ 0x1f) || (0x29 ≤ x && x ≤ 0x74)⟩,
    ⟨chars!"VendorSpecific", fun x => (0x80 ≤ x && x ≤ 0xff)⟩,
    ⟨chars!"Other", fun _ => true⟩
  ]

abbrev ConnectorType := Bf connectorTypeTable

end Xcvr

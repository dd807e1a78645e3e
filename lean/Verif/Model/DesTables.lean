/-!
# Tables of the DES protocol

Copied from libpok/protocols/des/spr.h and libpok/protocols/des/set_key.c.
-/

namespace Pok.Des

/-- `DES_SPtrans`, libpok/protocols/des/spr.h 75-203. -/
def SPtrans : Array (Array (BitVec 32)) := #[
  #[0x2080800#32, 0x80000#32, 0x2000002#32, 0x2080802#32, 0x2000000#32, 0x80802#32, 0x80002#32, 0x2000002#32,
    0x80802#32, 0x2080800#32, 0x2080000#32, 0x802#32, 0x2000802#32, 0x2000000#32, 0x0#32, 0x80002#32,
    0x80000#32, 0x2#32, 0x2000800#32, 0x80800#32, 0x2080802#32, 0x2080000#32, 0x802#32, 0x2000800#32,
    0x2#32, 0x800#32, 0x80800#32, 0x2080002#32, 0x800#32, 0x2000802#32, 0x2080002#32, 0x0#32,
    0x0#32, 0x2080802#32, 0x2000800#32, 0x80002#32, 0x2080800#32, 0x80000#32, 0x802#32, 0x2000800#32,
    0x2080002#32, 0x800#32, 0x80800#32, 0x2000002#32, 0x80802#32, 0x2#32, 0x2000002#32, 0x2080000#32,
    0x2080802#32, 0x80800#32, 0x2080000#32, 0x2000802#32, 0x2000000#32, 0x802#32, 0x80002#32, 0x0#32,
    0x80000#32, 0x2000000#32, 0x2000802#32, 0x2080800#32, 0x2#32, 0x2080002#32, 0x800#32, 0x80802#32],
  #[0x40108010#32, 0x0#32, 0x108000#32, 0x40100000#32, 0x40000010#32, 0x8010#32, 0x40008000#32, 0x108000#32,
    0x8000#32, 0x40100010#32, 0x10#32, 0x40008000#32, 0x100010#32, 0x40108000#32, 0x40100000#32, 0x10#32,
    0x100000#32, 0x40008010#32, 0x40100010#32, 0x8000#32, 0x108010#32, 0x40000000#32, 0x0#32, 0x100010#32,
    0x40008010#32, 0x108010#32, 0x40108000#32, 0x40000010#32, 0x40000000#32, 0x100000#32, 0x8010#32, 0x40108010#32,
    0x100010#32, 0x40108000#32, 0x40008000#32, 0x108010#32, 0x40108010#32, 0x100010#32, 0x40000010#32, 0x0#32,
    0x40000000#32, 0x8010#32, 0x100000#32, 0x40100010#32, 0x8000#32, 0x40000000#32, 0x108010#32, 0x40008010#32,
    0x40108000#32, 0x8000#32, 0x0#32, 0x40000010#32, 0x10#32, 0x40108010#32, 0x108000#32, 0x40100000#32,
    0x40100010#32, 0x100000#32, 0x8010#32, 0x40008000#32, 0x40008010#32, 0x10#32, 0x40100000#32, 0x108000#32],
  #[0x4000001#32, 0x4040100#32, 0x100#32, 0x4000101#32, 0x40001#32, 0x4000000#32, 0x4000101#32, 0x40100#32,
    0x4000100#32, 0x40000#32, 0x4040000#32, 0x1#32, 0x4040101#32, 0x101#32, 0x1#32, 0x4040001#32,
    0x0#32, 0x40001#32, 0x4040100#32, 0x100#32, 0x101#32, 0x4040101#32, 0x40000#32, 0x4000001#32,
    0x4040001#32, 0x4000100#32, 0x40101#32, 0x4040000#32, 0x40100#32, 0x0#32, 0x4000000#32, 0x40101#32,
    0x4040100#32, 0x100#32, 0x1#32, 0x40000#32, 0x101#32, 0x40001#32, 0x4040000#32, 0x4000101#32,
    0x0#32, 0x4040100#32, 0x40100#32, 0x4040001#32, 0x40001#32, 0x4000000#32, 0x4040101#32, 0x1#32,
    0x40101#32, 0x4000001#32, 0x4000000#32, 0x4040101#32, 0x40000#32, 0x4000100#32, 0x4000101#32, 0x40100#32,
    0x4000100#32, 0x0#32, 0x4040001#32, 0x101#32, 0x4000001#32, 0x40101#32, 0x100#32, 0x4040000#32],
  #[0x401008#32, 0x10001000#32, 0x8#32, 0x10401008#32, 0x0#32, 0x10400000#32, 0x10001008#32, 0x400008#32,
    0x10401000#32, 0x10000008#32, 0x10000000#32, 0x1008#32, 0x10000008#32, 0x401008#32, 0x400000#32, 0x10000000#32,
    0x10400008#32, 0x401000#32, 0x1000#32, 0x8#32, 0x401000#32, 0x10001008#32, 0x10400000#32, 0x1000#32,
    0x1008#32, 0x0#32, 0x400008#32, 0x10401000#32, 0x10001000#32, 0x10400008#32, 0x10401008#32, 0x400000#32,
    0x10400008#32, 0x1008#32, 0x400000#32, 0x10000008#32, 0x401000#32, 0x10001000#32, 0x8#32, 0x10400000#32,
    0x10001008#32, 0x0#32, 0x1000#32, 0x400008#32, 0x0#32, 0x10400008#32, 0x10401000#32, 0x1000#32,
    0x10000000#32, 0x10401008#32, 0x401008#32, 0x400000#32, 0x10401008#32, 0x8#32, 0x10001000#32, 0x401008#32,
    0x400008#32, 0x401000#32, 0x10400000#32, 0x10001008#32, 0x1008#32, 0x10000000#32, 0x10000008#32, 0x10401000#32],
  #[0x8000000#32, 0x10000#32, 0x400#32, 0x8010420#32, 0x8010020#32, 0x8000400#32, 0x10420#32, 0x8010000#32,
    0x10000#32, 0x20#32, 0x8000020#32, 0x10400#32, 0x8000420#32, 0x8010020#32, 0x8010400#32, 0x0#32,
    0x10400#32, 0x8000000#32, 0x10020#32, 0x420#32, 0x8000400#32, 0x10420#32, 0x0#32, 0x8000020#32,
    0x20#32, 0x8000420#32, 0x8010420#32, 0x10020#32, 0x8010000#32, 0x400#32, 0x420#32, 0x8010400#32,
    0x8010400#32, 0x8000420#32, 0x10020#32, 0x8010000#32, 0x10000#32, 0x20#32, 0x8000020#32, 0x8000400#32,
    0x8000000#32, 0x10400#32, 0x8010420#32, 0x0#32, 0x10420#32, 0x8000000#32, 0x400#32, 0x10020#32,
    0x8000420#32, 0x400#32, 0x0#32, 0x8010420#32, 0x8010020#32, 0x8010400#32, 0x420#32, 0x10000#32,
    0x10400#32, 0x8010020#32, 0x8000400#32, 0x420#32, 0x20#32, 0x10420#32, 0x8010000#32, 0x8000020#32],
  #[0x80000040#32, 0x200040#32, 0x0#32, 0x80202000#32, 0x200040#32, 0x2000#32, 0x80002040#32, 0x200000#32,
    0x2040#32, 0x80202040#32, 0x202000#32, 0x80000000#32, 0x80002000#32, 0x80000040#32, 0x80200000#32, 0x202040#32,
    0x200000#32, 0x80002040#32, 0x80200040#32, 0x0#32, 0x2000#32, 0x40#32, 0x80202000#32, 0x80200040#32,
    0x80202040#32, 0x80200000#32, 0x80000000#32, 0x2040#32, 0x40#32, 0x202000#32, 0x202040#32, 0x80002000#32,
    0x2040#32, 0x80000000#32, 0x80002000#32, 0x202040#32, 0x80202000#32, 0x200040#32, 0x0#32, 0x80002000#32,
    0x80000000#32, 0x2000#32, 0x80200040#32, 0x200000#32, 0x200040#32, 0x80202040#32, 0x202000#32, 0x40#32,
    0x80202040#32, 0x202000#32, 0x200000#32, 0x80002040#32, 0x80000040#32, 0x80200000#32, 0x202040#32, 0x0#32,
    0x2000#32, 0x80000040#32, 0x80002040#32, 0x80202000#32, 0x80200000#32, 0x2040#32, 0x40#32, 0x80200040#32],
  #[0x4000#32, 0x200#32, 0x1000200#32, 0x1000004#32, 0x1004204#32, 0x4004#32, 0x4200#32, 0x0#32,
    0x1000000#32, 0x1000204#32, 0x204#32, 0x1004000#32, 0x4#32, 0x1004200#32, 0x1004000#32, 0x204#32,
    0x1000204#32, 0x4000#32, 0x4004#32, 0x1004204#32, 0x0#32, 0x1000200#32, 0x1000004#32, 0x4200#32,
    0x1004004#32, 0x4204#32, 0x1004200#32, 0x4#32, 0x4204#32, 0x1004004#32, 0x200#32, 0x1000000#32,
    0x4204#32, 0x1004000#32, 0x1004004#32, 0x204#32, 0x4000#32, 0x200#32, 0x1000000#32, 0x1004004#32,
    0x1000204#32, 0x4204#32, 0x4200#32, 0x0#32, 0x200#32, 0x1000004#32, 0x4#32, 0x1000200#32,
    0x0#32, 0x1000204#32, 0x1000200#32, 0x4200#32, 0x204#32, 0x4000#32, 0x1004204#32, 0x1000000#32,
    0x1004200#32, 0x4#32, 0x4004#32, 0x1004204#32, 0x1000004#32, 0x1004200#32, 0x1004000#32, 0x4004#32],
  #[0x20800080#32, 0x20820000#32, 0x20080#32, 0x0#32, 0x20020000#32, 0x800080#32, 0x20800000#32, 0x20820080#32,
    0x80#32, 0x20000000#32, 0x820000#32, 0x20080#32, 0x820080#32, 0x20020080#32, 0x20000080#32, 0x20800000#32,
    0x20000#32, 0x820080#32, 0x800080#32, 0x20020000#32, 0x20820080#32, 0x20000080#32, 0x0#32, 0x820000#32,
    0x20000000#32, 0x800000#32, 0x20020080#32, 0x20800080#32, 0x800000#32, 0x20000#32, 0x20820000#32, 0x80#32,
    0x800000#32, 0x20000#32, 0x20000080#32, 0x20820080#32, 0x20080#32, 0x20000000#32, 0x0#32, 0x820000#32,
    0x20800080#32, 0x20020080#32, 0x20020000#32, 0x800080#32, 0x20820000#32, 0x80#32, 0x800080#32, 0x20020000#32,
    0x20820080#32, 0x800000#32, 0x20800000#32, 0x20000080#32, 0x820000#32, 0x20080#32, 0x20020080#32, 0x20800000#32,
    0x80#32, 0x20820000#32, 0x820080#32, 0x0#32, 0x20000000#32, 0x20800080#32, 0x20000#32, 0x820080#32]]

/-- `des_skb`, libpok/protocols/des/set_key.c 183-311. -/
def skb : Array (Array (BitVec 32)) := #[
  #[0x0#32, 0x10#32, 0x20000000#32, 0x20000010#32, 0x10000#32, 0x10010#32, 0x20010000#32, 0x20010010#32,
    0x800#32, 0x810#32, 0x20000800#32, 0x20000810#32, 0x10800#32, 0x10810#32, 0x20010800#32, 0x20010810#32,
    0x20#32, 0x30#32, 0x20000020#32, 0x20000030#32, 0x10020#32, 0x10030#32, 0x20010020#32, 0x20010030#32,
    0x820#32, 0x830#32, 0x20000820#32, 0x20000830#32, 0x10820#32, 0x10830#32, 0x20010820#32, 0x20010830#32,
    0x80000#32, 0x80010#32, 0x20080000#32, 0x20080010#32, 0x90000#32, 0x90010#32, 0x20090000#32, 0x20090010#32,
    0x80800#32, 0x80810#32, 0x20080800#32, 0x20080810#32, 0x90800#32, 0x90810#32, 0x20090800#32, 0x20090810#32,
    0x80020#32, 0x80030#32, 0x20080020#32, 0x20080030#32, 0x90020#32, 0x90030#32, 0x20090020#32, 0x20090030#32,
    0x80820#32, 0x80830#32, 0x20080820#32, 0x20080830#32, 0x90820#32, 0x90830#32, 0x20090820#32, 0x20090830#32],
  #[0x0#32, 0x2000000#32, 0x2000#32, 0x2002000#32, 0x200000#32, 0x2200000#32, 0x202000#32, 0x2202000#32,
    0x4#32, 0x2000004#32, 0x2004#32, 0x2002004#32, 0x200004#32, 0x2200004#32, 0x202004#32, 0x2202004#32,
    0x400#32, 0x2000400#32, 0x2400#32, 0x2002400#32, 0x200400#32, 0x2200400#32, 0x202400#32, 0x2202400#32,
    0x404#32, 0x2000404#32, 0x2404#32, 0x2002404#32, 0x200404#32, 0x2200404#32, 0x202404#32, 0x2202404#32,
    0x10000000#32, 0x12000000#32, 0x10002000#32, 0x12002000#32, 0x10200000#32, 0x12200000#32, 0x10202000#32, 0x12202000#32,
    0x10000004#32, 0x12000004#32, 0x10002004#32, 0x12002004#32, 0x10200004#32, 0x12200004#32, 0x10202004#32, 0x12202004#32,
    0x10000400#32, 0x12000400#32, 0x10002400#32, 0x12002400#32, 0x10200400#32, 0x12200400#32, 0x10202400#32, 0x12202400#32,
    0x10000404#32, 0x12000404#32, 0x10002404#32, 0x12002404#32, 0x10200404#32, 0x12200404#32, 0x10202404#32, 0x12202404#32],
  #[0x0#32, 0x1#32, 0x40000#32, 0x40001#32, 0x1000000#32, 0x1000001#32, 0x1040000#32, 0x1040001#32,
    0x2#32, 0x3#32, 0x40002#32, 0x40003#32, 0x1000002#32, 0x1000003#32, 0x1040002#32, 0x1040003#32,
    0x200#32, 0x201#32, 0x40200#32, 0x40201#32, 0x1000200#32, 0x1000201#32, 0x1040200#32, 0x1040201#32,
    0x202#32, 0x203#32, 0x40202#32, 0x40203#32, 0x1000202#32, 0x1000203#32, 0x1040202#32, 0x1040203#32,
    0x8000000#32, 0x8000001#32, 0x8040000#32, 0x8040001#32, 0x9000000#32, 0x9000001#32, 0x9040000#32, 0x9040001#32,
    0x8000002#32, 0x8000003#32, 0x8040002#32, 0x8040003#32, 0x9000002#32, 0x9000003#32, 0x9040002#32, 0x9040003#32,
    0x8000200#32, 0x8000201#32, 0x8040200#32, 0x8040201#32, 0x9000200#32, 0x9000201#32, 0x9040200#32, 0x9040201#32,
    0x8000202#32, 0x8000203#32, 0x8040202#32, 0x8040203#32, 0x9000202#32, 0x9000203#32, 0x9040202#32, 0x9040203#32],
  #[0x0#32, 0x100000#32, 0x100#32, 0x100100#32, 0x8#32, 0x100008#32, 0x108#32, 0x100108#32,
    0x1000#32, 0x101000#32, 0x1100#32, 0x101100#32, 0x1008#32, 0x101008#32, 0x1108#32, 0x101108#32,
    0x4000000#32, 0x4100000#32, 0x4000100#32, 0x4100100#32, 0x4000008#32, 0x4100008#32, 0x4000108#32, 0x4100108#32,
    0x4001000#32, 0x4101000#32, 0x4001100#32, 0x4101100#32, 0x4001008#32, 0x4101008#32, 0x4001108#32, 0x4101108#32,
    0x20000#32, 0x120000#32, 0x20100#32, 0x120100#32, 0x20008#32, 0x120008#32, 0x20108#32, 0x120108#32,
    0x21000#32, 0x121000#32, 0x21100#32, 0x121100#32, 0x21008#32, 0x121008#32, 0x21108#32, 0x121108#32,
    0x4020000#32, 0x4120000#32, 0x4020100#32, 0x4120100#32, 0x4020008#32, 0x4120008#32, 0x4020108#32, 0x4120108#32,
    0x4021000#32, 0x4121000#32, 0x4021100#32, 0x4121100#32, 0x4021008#32, 0x4121008#32, 0x4021108#32, 0x4121108#32],
  #[0x0#32, 0x10000000#32, 0x10000#32, 0x10010000#32, 0x4#32, 0x10000004#32, 0x10004#32, 0x10010004#32,
    0x20000000#32, 0x30000000#32, 0x20010000#32, 0x30010000#32, 0x20000004#32, 0x30000004#32, 0x20010004#32, 0x30010004#32,
    0x100000#32, 0x10100000#32, 0x110000#32, 0x10110000#32, 0x100004#32, 0x10100004#32, 0x110004#32, 0x10110004#32,
    0x20100000#32, 0x30100000#32, 0x20110000#32, 0x30110000#32, 0x20100004#32, 0x30100004#32, 0x20110004#32, 0x30110004#32,
    0x1000#32, 0x10001000#32, 0x11000#32, 0x10011000#32, 0x1004#32, 0x10001004#32, 0x11004#32, 0x10011004#32,
    0x20001000#32, 0x30001000#32, 0x20011000#32, 0x30011000#32, 0x20001004#32, 0x30001004#32, 0x20011004#32, 0x30011004#32,
    0x101000#32, 0x10101000#32, 0x111000#32, 0x10111000#32, 0x101004#32, 0x10101004#32, 0x111004#32, 0x10111004#32,
    0x20101000#32, 0x30101000#32, 0x20111000#32, 0x30111000#32, 0x20101004#32, 0x30101004#32, 0x20111004#32, 0x30111004#32],
  #[0x0#32, 0x8000000#32, 0x8#32, 0x8000008#32, 0x400#32, 0x8000400#32, 0x408#32, 0x8000408#32,
    0x20000#32, 0x8020000#32, 0x20008#32, 0x8020008#32, 0x20400#32, 0x8020400#32, 0x20408#32, 0x8020408#32,
    0x1#32, 0x8000001#32, 0x9#32, 0x8000009#32, 0x401#32, 0x8000401#32, 0x409#32, 0x8000409#32,
    0x20001#32, 0x8020001#32, 0x20009#32, 0x8020009#32, 0x20401#32, 0x8020401#32, 0x20409#32, 0x8020409#32,
    0x2000000#32, 0xa000000#32, 0x2000008#32, 0xa000008#32, 0x2000400#32, 0xa000400#32, 0x2000408#32, 0xa000408#32,
    0x2020000#32, 0xa020000#32, 0x2020008#32, 0xa020008#32, 0x2020400#32, 0xa020400#32, 0x2020408#32, 0xa020408#32,
    0x2000001#32, 0xa000001#32, 0x2000009#32, 0xa000009#32, 0x2000401#32, 0xa000401#32, 0x2000409#32, 0xa000409#32,
    0x2020001#32, 0xa020001#32, 0x2020009#32, 0xa020009#32, 0x2020401#32, 0xa020401#32, 0x2020409#32, 0xa020409#32],
  #[0x0#32, 0x100#32, 0x80000#32, 0x80100#32, 0x1000000#32, 0x1000100#32, 0x1080000#32, 0x1080100#32,
    0x10#32, 0x110#32, 0x80010#32, 0x80110#32, 0x1000010#32, 0x1000110#32, 0x1080010#32, 0x1080110#32,
    0x200000#32, 0x200100#32, 0x280000#32, 0x280100#32, 0x1200000#32, 0x1200100#32, 0x1280000#32, 0x1280100#32,
    0x200010#32, 0x200110#32, 0x280010#32, 0x280110#32, 0x1200010#32, 0x1200110#32, 0x1280010#32, 0x1280110#32,
    0x200#32, 0x300#32, 0x80200#32, 0x80300#32, 0x1000200#32, 0x1000300#32, 0x1080200#32, 0x1080300#32,
    0x210#32, 0x310#32, 0x80210#32, 0x80310#32, 0x1000210#32, 0x1000310#32, 0x1080210#32, 0x1080310#32,
    0x200200#32, 0x200300#32, 0x280200#32, 0x280300#32, 0x1200200#32, 0x1200300#32, 0x1280200#32, 0x1280300#32,
    0x200210#32, 0x200310#32, 0x280210#32, 0x280310#32, 0x1200210#32, 0x1200310#32, 0x1280210#32, 0x1280310#32],
  #[0x0#32, 0x4000000#32, 0x40000#32, 0x4040000#32, 0x2#32, 0x4000002#32, 0x40002#32, 0x4040002#32,
    0x2000#32, 0x4002000#32, 0x42000#32, 0x4042000#32, 0x2002#32, 0x4002002#32, 0x42002#32, 0x4042002#32,
    0x20#32, 0x4000020#32, 0x40020#32, 0x4040020#32, 0x22#32, 0x4000022#32, 0x40022#32, 0x4040022#32,
    0x2020#32, 0x4002020#32, 0x42020#32, 0x4042020#32, 0x2022#32, 0x4002022#32, 0x42022#32, 0x4042022#32,
    0x800#32, 0x4000800#32, 0x40800#32, 0x4040800#32, 0x802#32, 0x4000802#32, 0x40802#32, 0x4040802#32,
    0x2800#32, 0x4002800#32, 0x42800#32, 0x4042800#32, 0x2802#32, 0x4002802#32, 0x42802#32, 0x4042802#32,
    0x820#32, 0x4000820#32, 0x40820#32, 0x4040820#32, 0x822#32, 0x4000822#32, 0x40822#32, 0x4040822#32,
    0x2820#32, 0x4002820#32, 0x42820#32, 0x4042820#32, 0x2822#32, 0x4002822#32, 0x42822#32, 0x4042822#32]]

/-- `weak_keys`, libpok/protocols/des/set_key.c 137-155. -/
def weakKeys : Array (Array (BitVec 8)) := #[
  #[0x1#8, 0x1#8, 0x1#8, 0x1#8, 0x1#8, 0x1#8, 0x1#8, 0x1#8],
  #[0xfe#8, 0xfe#8, 0xfe#8, 0xfe#8, 0xfe#8, 0xfe#8, 0xfe#8, 0xfe#8],
  #[0x1f#8, 0x1f#8, 0x1f#8, 0x1f#8, 0xe#8, 0xe#8, 0xe#8, 0xe#8],
  #[0xe0#8, 0xe0#8, 0xe0#8, 0xe0#8, 0xf1#8, 0xf1#8, 0xf1#8, 0xf1#8],
  #[0x1#8, 0xfe#8, 0x1#8, 0xfe#8, 0x1#8, 0xfe#8, 0x1#8, 0xfe#8],
  #[0xfe#8, 0x1#8, 0xfe#8, 0x1#8, 0xfe#8, 0x1#8, 0xfe#8, 0x1#8],
  #[0x1f#8, 0xe0#8, 0x1f#8, 0xe0#8, 0xe#8, 0xf1#8, 0xe#8, 0xf1#8],
  #[0xe0#8, 0x1f#8, 0xe0#8, 0x1f#8, 0xf1#8, 0xe#8, 0xf1#8, 0xe#8],
  #[0x1#8, 0xe0#8, 0x1#8, 0xe0#8, 0x1#8, 0xf1#8, 0x1#8, 0xf1#8],
  #[0xe0#8, 0x1#8, 0xe0#8, 0x1#8, 0xf1#8, 0x1#8, 0xf1#8, 0x1#8],
  #[0x1f#8, 0xfe#8, 0x1f#8, 0xfe#8, 0xe#8, 0xfe#8, 0xe#8, 0xfe#8],
  #[0xfe#8, 0x1f#8, 0xfe#8, 0x1f#8, 0xfe#8, 0xe#8, 0xfe#8, 0xe#8],
  #[0x1#8, 0x1f#8, 0x1#8, 0x1f#8, 0x1#8, 0xe#8, 0x1#8, 0xe#8],
  #[0x1f#8, 0x1#8, 0x1f#8, 0x1#8, 0xe#8, 0x1#8, 0xe#8, 0x1#8],
  #[0xe0#8, 0xfe#8, 0xe0#8, 0xfe#8, 0xf1#8, 0xfe#8, 0xf1#8, 0xfe#8],
  #[0xfe#8, 0xe0#8, 0xfe#8, 0xe0#8, 0xfe#8, 0xf1#8, 0xfe#8, 0xf1#8]]

/-- `odd_parity`, libpok/protocols/des/set_key.c 90-108. -/
def oddParity : Array (BitVec 8) := #[
  1#8, 1#8, 2#8, 2#8, 4#8, 4#8, 7#8, 7#8, 8#8, 8#8, 11#8, 11#8, 13#8, 13#8, 14#8, 14#8,
  16#8, 16#8, 19#8, 19#8, 21#8, 21#8, 22#8, 22#8, 25#8, 25#8, 26#8, 26#8, 28#8, 28#8, 31#8, 31#8,
  32#8, 32#8, 35#8, 35#8, 37#8, 37#8, 38#8, 38#8, 41#8, 41#8, 42#8, 42#8, 44#8, 44#8, 47#8, 47#8,
  49#8, 49#8, 50#8, 50#8, 52#8, 52#8, 55#8, 55#8, 56#8, 56#8, 59#8, 59#8, 61#8, 61#8, 62#8, 62#8,
  64#8, 64#8, 67#8, 67#8, 69#8, 69#8, 70#8, 70#8, 73#8, 73#8, 74#8, 74#8, 76#8, 76#8, 79#8, 79#8,
  81#8, 81#8, 82#8, 82#8, 84#8, 84#8, 87#8, 87#8, 88#8, 88#8, 91#8, 91#8, 93#8, 93#8, 94#8, 94#8,
  97#8, 97#8, 98#8, 98#8, 100#8, 100#8, 103#8, 103#8, 104#8, 104#8, 107#8, 107#8, 109#8, 109#8, 110#8, 110#8,
  112#8, 112#8, 115#8, 115#8, 117#8, 117#8, 118#8, 118#8, 121#8, 121#8, 122#8, 122#8, 124#8, 124#8, 127#8, 127#8,
  128#8, 128#8, 131#8, 131#8, 133#8, 133#8, 134#8, 134#8, 137#8, 137#8, 138#8, 138#8, 140#8, 140#8, 143#8, 143#8,
  145#8, 145#8, 146#8, 146#8, 148#8, 148#8, 151#8, 151#8, 152#8, 152#8, 155#8, 155#8, 157#8, 157#8, 158#8, 158#8,
  161#8, 161#8, 162#8, 162#8, 164#8, 164#8, 167#8, 167#8, 168#8, 168#8, 171#8, 171#8, 173#8, 173#8, 174#8, 174#8,
  176#8, 176#8, 179#8, 179#8, 181#8, 181#8, 182#8, 182#8, 185#8, 185#8, 186#8, 186#8, 188#8, 188#8, 191#8, 191#8,
  193#8, 193#8, 194#8, 194#8, 196#8, 196#8, 199#8, 199#8, 200#8, 200#8, 203#8, 203#8, 205#8, 205#8, 206#8, 206#8,
  208#8, 208#8, 211#8, 211#8, 213#8, 213#8, 214#8, 214#8, 217#8, 217#8, 218#8, 218#8, 220#8, 220#8, 223#8, 223#8,
  224#8, 224#8, 227#8, 227#8, 229#8, 229#8, 230#8, 230#8, 233#8, 233#8, 234#8, 234#8, 236#8, 236#8, 239#8, 239#8,
  241#8, 241#8, 242#8, 242#8, 244#8, 244#8, 247#8, 247#8, 248#8, 248#8, 251#8, 251#8, 253#8, 253#8, 254#8, 254#8]

end Pok.Des

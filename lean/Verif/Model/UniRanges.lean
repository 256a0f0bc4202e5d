import Verif.Model.UniLookup
/-
The age, block and script tables of the Unicode database.
Source: /repo/include/unicode-db/unicode-db.hpp:1285-1620, 3658-3712, 4037-4455
Generated from the source text, number by number.
-/
set_option maxRecDepth 20000
namespace Ctre.Ucd

/-- `age_data` (/repo/include/unicode-db/unicode-db.hpp:1285-1620). -/
def age : List Nat := [
  0x1, 0x1F604, 0x1FA01, 0x21804, 0x22006, 0x22107, 0x22204, 0x23407, 0x23708, 0x24209, 0x25001,
  0x2A904, 0x2AE07, 0x2B001, 0x2DF04, 0x2E001, 0x2EA04, 0x2EF07, 0x30001, 0x34604, 0x34F06,
  0x35007, 0x35808, 0x35D07, 0x36001, 0x36204, 0x36306, 0x3700A, 0x37401, 0x3760A, 0x37800,
  0x37A01, 0x37B09, 0x37E01, 0x37F10, 0x38000, 0x38401, 0x38B00, 0x38C01, 0x38D00, 0x38E01,
  0x3A200, 0x3A301, 0x3CF0A, 0x3D001, 0x3D704, 0x3D806, 0x3DA01, 0x3DB04, 0x3DC01, 0x3DD04,
  0x3DE01, 0x3DF04, 0x3E001, 0x3E104, 0x3E201, 0x3F405, 0x3F606, 0x3F707, 0x3FC08, 0x40004,
  0x40101, 0x40D04, 0x40E01, 0x45004, 0x45101, 0x45D04, 0x45E01, 0x4870A, 0x48804, 0x48A06,
  0x48C04, 0x49001, 0x4C506, 0x4C701, 0x4C906, 0x4CB01, 0x4CD06, 0x4CF09, 0x4D001, 0x4EC04,
  0x4EE01, 0x4F608, 0x4F801, 0x4FA09, 0x50006, 0x51009, 0x5140A, 0x5240B, 0x5260C, 0x52810,
  0x53000, 0x53101, 0x55700, 0x55901, 0x56014, 0x56101, 0x58814, 0x58901, 0x58A04, 0x58B00,
  0x58D10, 0x58F0D, 0x59000, 0x59102, 0x5A208, 0x5A302, 0x5B001, 0x5BA09, 0x5BB01, 0x5C402,
  0x5C508, 0x5C800, 0x5D001, 0x5EB00, 0x5EF14, 0x5F001, 0x5F500, 0x60007, 0x6040D, 0x60510,
  0x6060A, 0x60B08, 0x60C01, 0x60D07, 0x6160A, 0x61B01, 0x61C0F, 0x61D18, 0x61E08, 0x61F01,
  0x6200C, 0x62101, 0x63B0A, 0x64001, 0x65304, 0x65607, 0x65908, 0x65F0C, 0x66001, 0x66E06,
  0x67001, 0x6B804, 0x6BA01, 0x6BF04, 0x6C001, 0x6CF04, 0x6D001, 0x6EE07, 0x6F001, 0x6FA04,
  0x6FF07, 0x70004, 0x70E00, 0x70F04, 0x72D07, 0x73004, 0x74B00, 0x74D07, 0x75008, 0x76E0A,
  0x78004, 0x7B106, 0x7B200, 0x7C009, 0x7FB00, 0x7FD14, 0x8000B, 0x82E00, 0x8300B, 0x83F00,
  0x8400C, 0x85C00, 0x85E0C, 0x85F00, 0x86013, 0x86B00, 0x87018, 0x88F00, 0x89018, 0x89200,
  0x89818, 0x8A00D, 0x8A110, 0x8A20D, 0x8AD10, 0x8B311, 0x8B518, 0x8B612, 0x8BE17, 0x8C818,
  0x8D314, 0x8D412, 0x8E311, 0x8E40D, 0x8FF10, 0x9000B, 0x90101, 0x90407, 0x90501, 0x93A0C,
  0x93C01, 0x94E0B, 0x94F0C, 0x95001, 0x9550B, 0x9560C, 0x95801, 0x9710A, 0x9730C, 0x97810,
  0x9790B, 0x97B09, 0x97D08, 0x97E09, 0x98010, 0x98101, 0x98400, 0x98501, 0x98D00, 0x98F01,
  0x99100, 0x99301, 0x9A900, 0x9AA01, 0x9B100, 0x9B201, 0x9B300, 0x9B601, 0x9BA00, 0x9BC01,
  0x9BD07, 0x9BE01, 0x9C500, 0x9C701, 0x9C900, 0x9CB01, 0x9CE08, 0x9CF00, 0x9D701, 0x9D800,
  0x9DC01, 0x9DE00, 0x9DF01, 0x9E400, 0x9E601, 0x9FB0B, 0x9FC13, 0x9FE14, 0x9FF00, 0xA0107,
  0xA0201, 0xA0307, 0xA0400, 0xA0501, 0xA0B00, 0xA0F01, 0xA1100, 0xA1301, 0xA2900, 0xA2A01,
  0xA3100, 0xA3201, 0xA3400, 0xA3501, 0xA3700, 0xA3801, 0xA3A00, 0xA3C01, 0xA3D00, 0xA3E01,
  0xA4300, 0xA4701, 0xA4900, 0xA4B01, 0xA4E00, 0xA510A, 0xA5200, 0xA5901, 0xA5D00, 0xA5E01,
  0xA5F00, 0xA6601, 0xA750A, 0xA7614, 0xA7700, 0xA8101, 0xA8400, 0xA8501, 0xA8C07, 0xA8D01,
  0xA8E00, 0xA8F01, 0xA9200, 0xA9301, 0xAA900, 0xAAA01, 0xAB100, 0xAB201, 0xAB400, 0xAB501,
  0xABA00, 0xABC01, 0xAC600, 0xAC701, 0xACA00, 0xACB01, 0xACE00, 0xAD001, 0xAD100, 0xAE001,
  0xAE107, 0xAE400, 0xAE601, 0xAF00D, 0xAF107, 0xAF200, 0xAF911, 0xAFA13, 0xB0000, 0xB0101,
  0xB0400, 0xB0501, 0xB0D00, 0xB0F01, 0xB1100, 0xB1301, 0xB2900, 0xB2A01, 0xB3100, 0xB3201,
  0xB3400, 0xB3507, 0xB3601, 0xB3A00, 0xB3C01, 0xB440A, 0xB4500, 0xB4701, 0xB4900, 0xB4B01,
  0xB4E00, 0xB5517, 0xB5601, 0xB5800, 0xB5C01, 0xB5E00, 0xB5F01, 0xB620A, 0xB6400, 0xB6601,
  0xB7107, 0xB720C, 0xB7800, 0xB8201, 0xB8400, 0xB8501, 0xB8B00, 0xB8E01, 0xB9100, 0xB9201,
  0xB9600, 0xB9901, 0xB9B00, 0xB9C01, 0xB9D00, 0xB9E01, 0xBA000, 0xBA301, 0xBA500, 0xBA801,
  0xBAB00, 0xBAE01, 0xBB608, 0xBB701, 0xBBA00, 0xBBE01, 0xBC300, 0xBC601, 0xBC900, 0xBCA01,
  0xBCE00, 0xBD00A, 0xBD100, 0xBD701, 0xBD800, 0xBE608, 0xBE701, 0xBF307, 0xBFB00, 0xC0010,
  0xC0101, 0xC0414, 0xC0501, 0xC0D00, 0xC0E01, 0xC1100, 0xC1201, 0xC2900, 0xC2A01, 0xC3410,
  0xC3501, 0xC3A00, 0xC3C18, 0xC3D0A, 0xC3E01, 0xC4500, 0xC4601, 0xC4900, 0xC4A01, 0xC4E00,
  0xC5501, 0xC5700, 0xC580A, 0xC5A11, 0xC5B00, 0xC5D18, 0xC5E00, 0xC6001, 0xC620A, 0xC6400,
  0xC6601, 0xC7000, 0xC7715, 0xC780A, 0xC8012, 0xC8110, 0xC8201, 0xC8414, 0xC8501, 0xC8D00,
  0xC8E01, 0xC9100, 0xC9201, 0xCA900, 0xCAA01, 0xCB400, 0xCB501, 0xCBA00, 0xCBC07, 0xCBE01,
  0xCC500, 0xCC601, 0xCC900, 0xCCA01, 0xCCE00, 0xCD501, 0xCD700, 0xCDD18, 0xCDE01, 0xCDF00,
  0xCE001, 0xCE209, 0xCE400, 0xCE601, 0xCF000, 0xCF109, 0xCF300, 0xD0013, 0xD0110, 0xD0201,
  0xD0417, 0xD0501, 0xD0D00, 0xD0E01, 0xD1100, 0xD1201, 0xD290C, 0xD2A01, 0xD3A0C, 0xD3B13,
  0xD3D0A, 0xD3E01, 0xD440A, 0xD4500, 0xD4601, 0xD4900, 0xD4A01, 0xD4E0C, 0xD4F12, 0xD5000,
  0xD5412, 0xD5701, 0xD5812, 0xD5F11, 0xD6001, 0xD620A, 0xD6400, 0xD6601, 0xD700A, 0xD7612,
  0xD790A, 0xD8000, 0xD8117, 0xD8204, 0xD8400, 0xD8504, 0xD9700, 0xD9A04, 0xDB200, 0xDB304,
  0xDBC00, 0xDBD04, 0xDBE00, 0xDC004, 0xDC700, 0xDCA04, 0xDCB00, 0xDCF04, 0xDD500, 0xDD604,
  0xDD700, 0xDD804, 0xDE000, 0xDE610, 0xDF000, 0xDF204, 0xDF500, 0xE0101, 0xE3B00, 0xE3F01,
  0xE5C00, 0xE8101, 0xE8300, 0xE8401, 0xE8500, 0xE8615, 0xE8701, 0xE8915, 0xE8A01, 0xE8B00,
  0xE8C15, 0xE8D01, 0xE8E15, 0xE9401, 0xE9815, 0xE9901, 0xEA015, 0xEA101, 0xEA400, 0xEA501,
  0xEA600, 0xEA701, 0xEA815, 0xEAA01, 0xEAC15, 0xEAD01, 0xEBA15, 0xEBB01, 0xEBE00, 0xEC001,
  0xEC500, 0xEC601, 0xEC700, 0xEC801, 0xECE00, 0xED001, 0xEDA00, 0xEDC01, 0xEDE0D, 0xEE000,
  0xF0002, 0xF4800, 0xF4902, 0xF6A04, 0xF6B0A, 0xF6D00, 0xF7102, 0xF8C0C, 0xF9002, 0xF9604,
  0xF9702, 0xF9800, 0xF9902, 0xFAE04, 0xFB102, 0xFB804, 0xFB902, 0xFBA04, 0xFBD00, 0xFBE04,
  0xFCD00, 0xFCE0A, 0xFCF04, 0xFD008, 0xFD20A, 0xFD50B, 0xFD90C, 0xFDB00, 0x100004, 0x10220A,
  0x102304, 0x10280A, 0x102904, 0x102B0A, 0x102C04, 0x10330A, 0x103604, 0x103A0A, 0x104004,
  0x105A0A, 0x109A0B, 0x109E0A, 0x10A001, 0x10C600, 0x10C70D, 0x10C800, 0x10CD0D, 0x10CE00,
  0x10D001, 0x10F706, 0x10F908, 0x10FB01, 0x10FC08, 0x10FD0D, 0x110001, 0x115A0B, 0x115F01,
  0x11A30B, 0x11A801, 0x11FA0B, 0x120004, 0x120708, 0x120804, 0x124708, 0x124804, 0x124900,
  0x124A04, 0x124E00, 0x125004, 0x125700, 0x125804, 0x125900, 0x125A04, 0x125E00, 0x126004,
  0x128708, 0x128804, 0x128900, 0x128A04, 0x128E00, 0x129004, 0x12AF08, 0x12B004, 0x12B100,
  0x12B204, 0x12B600, 0x12B804, 0x12BF00, 0x12C004, 0x12C100, 0x12C204, 0x12C600, 0x12C804,
  0x12CF08, 0x12D004, 0x12D700, 0x12D804, 0x12EF08, 0x12F004, 0x130F08, 0x131004, 0x131100,
  0x131204, 0x131600, 0x131804, 0x131F08, 0x132004, 0x134708, 0x134804, 0x135B00, 0x135D0C,
  0x135F08, 0x136104, 0x137D00, 0x138008, 0x139A00, 0x13A004, 0x13F511, 0x13F600, 0x13F811,
  0x13FE00, 0x14000B, 0x140104, 0x16770B, 0x168004, 0x169D00, 0x16A004, 0x16F110, 0x16F900,
  0x170006, 0x170D18, 0x170E06, 0x171518, 0x171600, 0x171F18, 0x172006, 0x173700, 0x174006,
  0x175400, 0x176006, 0x176D00, 0x176E06, 0x177100, 0x177206, 0x177400, 0x178004, 0x17DD07,
  0x17DE00, 0x17E004, 0x17EA00, 0x17F007, 0x17FA00, 0x180004, 0x180F18, 0x181004, 0x181A00,
  0x182004, 0x187814, 0x187900, 0x188004, 0x18AA0A, 0x18AB00, 0x18B00B, 0x18F600, 0x190007,
  0x191D10, 0x191F00, 0x192007, 0x192C00, 0x193007, 0x193C00, 0x194007, 0x194100, 0x194407,
  0x196E00, 0x197007, 0x197500, 0x198008, 0x19AA0B, 0x19AC00, 0x19B008, 0x19CA00, 0x19D008,
  0x19DA0B, 0x19DB00, 0x19DE08, 0x19E007, 0x1A0008, 0x1A1C00, 0x1A1E08, 0x1A200B, 0x1A5F00,
  0x1A600B, 0x1A7D00, 0x1A7F0B, 0x1A8A00, 0x1A900B, 0x1A9A00, 0x1AA00B, 0x1AAE00, 0x1AB010,
  0x1ABF17, 0x1AC118, 0x1ACF00, 0x1B0009, 0x1B4C18, 0x1B4D00, 0x1B5009, 0x1B7D18, 0x1B7F00,
  0x1B800A, 0x1BAB0D, 0x1BAE0A, 0x1BBA0D, 0x1BC00C, 0x1BF400, 0x1BFC0C, 0x1C000A, 0x1C3800,
  0x1C3B0A, 0x1C4A00, 0x1C4D0A, 0x1C8012, 0x1C8900, 0x1C9014, 0x1CBB00, 0x1CBD14, 0x1CC00D,
  0x1CC800, 0x1CD00B, 0x1CF30D, 0x1CF713, 0x1CF810, 0x1CFA15, 0x1CFB00, 0x1D0007, 0x1D6C08,
  0x1DC409, 0x1DCB0A, 0x1DE710, 0x1DF613, 0x1DFA18, 0x1DFB12, 0x1DFC0C, 0x1DFD0B, 0x1DFE09,
  0x1E0001, 0x1E9B02, 0x1E9C0A, 0x1EA001, 0x1EFA0A, 0x1F0001, 0x1F1600, 0x1F1801, 0x1F1E00,
  0x1F2001, 0x1F4600, 0x1F4801, 0x1F4E00, 0x1F5001, 0x1F5800, 0x1F5901, 0x1F5A00, 0x1F5B01,
  0x1F5C00, 0x1F5D01, 0x1F5E00, 0x1F5F01, 0x1F7E00, 0x1F8001, 0x1FB500, 0x1FB601, 0x1FC500,
  0x1FC601, 0x1FD400, 0x1FD601, 0x1FDC00, 0x1FDD01, 0x1FF000, 0x1FF201, 0x1FF500, 0x1FF601,
  0x1FFF00, 0x200001, 0x202F04, 0x203001, 0x204706, 0x204804, 0x204E06, 0x205307, 0x205508,
  0x205706, 0x205808, 0x205F06, 0x20640A, 0x206500, 0x20660F, 0x206A01, 0x207106, 0x207200,
  0x207401, 0x208F00, 0x209008, 0x20950C, 0x209D00, 0x20A001, 0x20AB02, 0x20AC03, 0x20AD04,
  0x20B006, 0x20B208, 0x20B60B, 0x20B90C, 0x20BA0E, 0x20BB10, 0x20BE11, 0x20BF13, 0x20C018,
  0x20C100, 0x20D001, 0x20E204, 0x20E406, 0x20EB08, 0x20EC09, 0x20F00A, 0x20F100, 0x210001,
  0x213904, 0x213B07, 0x213C08, 0x213D06, 0x214C08, 0x214D09, 0x214F0A, 0x21500B, 0x215301,
  0x218304, 0x218409, 0x21850A, 0x21890B, 0x218A11, 0x218C00, 0x219001, 0x21EB04, 0x21F406,
  0x220001, 0x22F206, 0x230001, 0x230104, 0x230201, 0x237B04, 0x237C06, 0x237D04, 0x239B06,
  0x23CF07, 0x23D108, 0x23DC09, 0x23E80B, 0x23E90C, 0x23F410, 0x23FB12, 0x23FF13, 0x240001,
  0x242504, 0x242700, 0x244001, 0x244B00, 0x246001, 0x24EB06, 0x24FF07, 0x250001, 0x259606,
  0x25A001, 0x25F004, 0x25F806, 0x260001, 0x261407, 0x261606, 0x261808, 0x261904, 0x261A01,
  0x267004, 0x267206, 0x267E08, 0x268006, 0x268A07, 0x269208, 0x269D0A, 0x269E0B, 0x26A007,
  0x26A208, 0x26B209, 0x26B30A, 0x26BD0B, 0x26C00A, 0x26C40B, 0x26CE0C, 0x26CF0B, 0x26E20C,
  0x26E30B, 0x26E40C, 0x26E80B, 0x270010, 0x270101, 0x27050C, 0x270601, 0x270A0C, 0x270C01,
  0x27280C, 0x272901, 0x274C0C, 0x274D01, 0x274E0C, 0x274F01, 0x27530C, 0x275601, 0x27570B,
  0x275801, 0x275F0C, 0x276101, 0x276806, 0x277601, 0x27950C, 0x279801, 0x27B00C, 0x27B101,
  0x27BF0C, 0x27C008, 0x27C709, 0x27CB0D, 0x27CC0A, 0x27CD0D, 0x27CE0C, 0x27D006, 0x27EC0A,
  0x27F006, 0x280004, 0x290006, 0x2B0007, 0x2B0E08, 0x2B1409, 0x2B1B0A, 0x2B2009, 0x2B240A,
  0x2B4D10, 0x2B500A, 0x2B550B, 0x2B5A10, 0x2B7400, 0x2B7610, 0x2B9600, 0x2B9717, 0x2B9810,
  0x2BBA14, 0x2BBD10, 0x2BC915, 0x2BCA10, 0x2BD213, 0x2BD314, 0x2BEC11, 0x2BF014, 0x2BFF15,
  0x2C0008, 0x2C2F18, 0x2C3008, 0x2C5F18, 0x2C6009, 0x2C6D0A, 0x2C700B, 0x2C710A, 0x2C7409,
  0x2C780A, 0x2C7E0B, 0x2C8008, 0x2CEB0B, 0x2CF20D, 0x2CF400, 0x2CF908, 0x2D2600, 0x2D270D,
  0x2D2800, 0x2D2D0D, 0x2D2E00, 0x2D3008, 0x2D660D, 0x2D6800, 0x2D6F08, 0x2D700C, 0x2D7100,
  0x2D7F0C, 0x2D8008, 0x2D9700, 0x2DA008, 0x2DA700, 0x2DA808, 0x2DAF00, 0x2DB008, 0x2DB700,
  0x2DB808, 0x2DBF00, 0x2DC008, 0x2DC700, 0x2DC808, 0x2DCF00, 0x2DD008, 0x2DD700, 0x2DD808,
  0x2DDF00, 0x2DE00A, 0x2E0008, 0x2E180A, 0x2E1C08, 0x2E1E0A, 0x2E310B, 0x2E320D, 0x2E3C10,
  0x2E4312, 0x2E4513, 0x2E4A14, 0x2E4F15, 0x2E5017, 0x2E5318, 0x2E5E00, 0x2E8004, 0x2E9A00,
  0x2E9B04, 0x2EF400, 0x2F0004, 0x2FD600, 0x2FF004, 0x2FFC00, 0x300001, 0x303804, 0x303B06,
  0x303E04, 0x303F01, 0x304000, 0x304101, 0x309506, 0x309700, 0x309901, 0x309F06, 0x30A101,
  0x30FF06, 0x310000, 0x310501, 0x312D0A, 0x312E13, 0x312F14, 0x313000, 0x313101, 0x318F00,
  0x319001, 0x31A004, 0x31B80C, 0x31BB17, 0x31C008, 0x31D00A, 0x31E400, 0x31F006, 0x320001,
  0x321D07, 0x321F00, 0x322001, 0x32440B, 0x325007, 0x325106, 0x326001, 0x327C07, 0x327E08,
  0x327F01, 0x32B106, 0x32C001, 0x32CC07, 0x32D001, 0x32FF16, 0x330001, 0x337707, 0x337B01,
  0x33DE07, 0x33E001, 0x33FF07, 0x340004, 0x4DB617, 0x4DC007, 0x4E0001, 0x9FA608, 0x9FBC0A,
  0x9FC40B, 0x9FCC0D, 0x9FCD11, 0x9FD613, 0x9FEB14, 0x9FF017, 0x9FFD18, 0xA00004, 0xA48D00,
  0xA49004, 0xA4A206, 0xA4A404, 0xA4B406, 0xA4B504, 0xA4C106, 0xA4C204, 0xA4C506, 0xA4C604,
  0xA4C700, 0xA4D00B, 0xA5000A, 0xA62C00, 0xA6400A, 0xA6600C, 0xA6620A, 0xA6740D, 0xA67C0A,
  0xA69810, 0xA69E11, 0xA69F0D, 0xA6A00B, 0xA6F800, 0xA70008, 0xA71709, 0xA71B0A, 0xA72009,
  0xA7220A, 0xA78D0C, 0xA78F11, 0xA7900C, 0xA7920D, 0xA79410, 0xA7A00C, 0xA7AA0D, 0xA7AB10,
  0xA7AE12, 0xA7AF14, 0xA7B010, 0xA7B211, 0xA7B814, 0xA7BA15, 0xA7C018, 0xA7C215, 0xA7C717,
  0xA7CB00, 0xA7D018, 0xA7D200, 0xA7D318, 0xA7D400, 0xA7D518, 0xA7DA00, 0xA7F218, 0xA7F517,
  0xA7F710, 0xA7F80D, 0xA7FA0C, 0xA7FB0A, 0xA80008, 0xA82C17, 0xA82D00, 0xA8300B, 0xA83A00,
  0xA84009, 0xA87800, 0xA8800A, 0xA8C512, 0xA8C600, 0xA8CE0A, 0xA8DA00, 0xA8E00B, 0xA8FC11,
  0xA8FE14, 0xA9000A, 0xA95400, 0xA95F0A, 0xA9600B, 0xA97D00, 0xA9800B, 0xA9CE00, 0xA9CF0B,
  0xA9DA00, 0xA9DE0B, 0xA9E010, 0xA9FF00, 0xAA000A, 0xAA3700, 0xAA400A, 0xAA4E00, 0xAA500A,
  0xAA5A00, 0xAA5C0A, 0xAA600B, 0xAA7C10, 0xAA800B, 0xAAC300, 0xAADB0B, 0xAAE00D, 0xAAF700,
  0xAB010C, 0xAB0700, 0xAB090C, 0xAB0F00, 0xAB110C, 0xAB1700, 0xAB200C, 0xAB2700, 0xAB280C,
  0xAB2F00, 0xAB3010, 0xAB6011, 0xAB6410, 0xAB6615, 0xAB6817, 0xAB6C00, 0xAB7011, 0xABC00B,
  0xABEE00, 0xABF00B, 0xABFA00, 0xAC0002, 0xD7A400, 0xD7B00B, 0xD7C700, 0xD7CB0B, 0xD7FC00,
  0xD80002, 0xE00001, 0xFA2E0D, 0xFA3006, 0xFA6B0B, 0xFA6E00, 0xFA7008, 0xFADA00, 0xFB0001,
  0xFB0700, 0xFB1301, 0xFB1800, 0xFB1D04, 0xFB1E01, 0xFB3700, 0xFB3801, 0xFB3D00, 0xFB3E01,
  0xFB3F00, 0xFB4001, 0xFB4200, 0xFB4301, 0xFB4500, 0xFB4601, 0xFBB20C, 0xFBC218, 0xFBC300,
  0xFBD301, 0xFD4018, 0xFD5001, 0xFD9000, 0xFD9201, 0xFDC800, 0xFDCF18, 0xFDD000, 0xFDF001,
  0xFDFC06, 0xFDFD07, 0xFDFE18, 0xFE0006, 0xFE1008, 0xFE1A00, 0xFE2001, 0xFE240A, 0xFE2710,
  0xFE2E11, 0xFE3001, 0xFE4506, 0xFE4707, 0xFE4901, 0xFE5300, 0xFE5401, 0xFE6700, 0xFE6801,
  0xFE6C00, 0xFE7001, 0xFE7306, 0xFE7401, 0xFE7500, 0xFE7601, 0xFEFD00, 0xFEFF01, 0xFF0000,
  0xFF0101, 0xFF5F06, 0xFF6101, 0xFFBF00, 0xFFC201, 0xFFC800, 0xFFCA01, 0xFFD000, 0xFFD201,
  0xFFD800, 0xFFDA01, 0xFFDD00, 0xFFE001, 0xFFE700, 0xFFE801, 0xFFEF00, 0xFFF904, 0xFFFC03,
  0xFFFD01, 0xFFFE00, 0x1000007, 0x1000C00, 0x1000D07, 0x1002700, 0x1002807, 0x1003B00, 0x1003C07,
  0x1003E00, 0x1003F07, 0x1004E00, 0x1005007, 0x1005E00, 0x1008007, 0x100FB00, 0x1010007,
  0x1010300, 0x1010707, 0x1013400, 0x1013707, 0x1014008, 0x1018B10, 0x1018D12, 0x1018F00,
  0x101900A, 0x1019C17, 0x1019D00, 0x101A010, 0x101A100, 0x101D00A, 0x101FE00, 0x102800A,
  0x1029D00, 0x102A00A, 0x102D100, 0x102E010, 0x102FC00, 0x1030005, 0x1031F10, 0x1032005,
  0x1032400, 0x1032D13, 0x1033005, 0x1034B00, 0x1035010, 0x1037B00, 0x1038007, 0x1039E00,
  0x1039F07, 0x103A008, 0x103C400, 0x103C808, 0x103D600, 0x1040005, 0x1042607, 0x1042805,
  0x1044E07, 0x1049E00, 0x104A007, 0x104AA00, 0x104B012, 0x104D400, 0x104D812, 0x104FC00,
  0x1050010, 0x1052800, 0x1053010, 0x1056400, 0x1056F10, 0x1057018, 0x1057B00, 0x1057C18,
  0x1058B00, 0x1058C18, 0x1059300, 0x1059418, 0x1059600, 0x1059718, 0x105A200, 0x105A318,
  0x105B200, 0x105B318, 0x105BA00, 0x105BB18, 0x105BD00, 0x1060010, 0x1073700, 0x1074010,
  0x1075600, 0x1076010, 0x1076800, 0x1078018, 0x1078600, 0x1078718, 0x107B100, 0x107B218,
  0x107BB00, 0x1080007, 0x1080600, 0x1080807, 0x1080900, 0x1080A07, 0x1083600, 0x1083707,
  0x1083900, 0x1083C07, 0x1083D00, 0x1083F07, 0x108400B, 0x1085600, 0x108570B, 0x1086010,
  0x1089F00, 0x108A710, 0x108B000, 0x108E011, 0x108F300, 0x108F411, 0x108F600, 0x108FB11,
  0x1090009, 0x1091A0B, 0x1091C00, 0x1091F09, 0x109200A, 0x1093A00, 0x1093F0A, 0x1094000,
  0x109800D, 0x109B800, 0x109BC11, 0x109BE0D, 0x109C011, 0x109D000, 0x109D211, 0x10A0008,
  0x10A0400, 0x10A0508, 0x10A0700, 0x10A0C08, 0x10A1400, 0x10A1508, 0x10A1800, 0x10A1908,
  0x10A3414, 0x10A3600, 0x10A3808, 0x10A3B00, 0x10A3F08, 0x10A4814, 0x10A4900, 0x10A5008,
  0x10A5900, 0x10A600B, 0x10A8010, 0x10AA000, 0x10AC010, 0x10AE700, 0x10AEB10, 0x10AF700,
  0x10B000B, 0x10B3600, 0x10B390B, 0x10B5600, 0x10B580B, 0x10B7300, 0x10B780B, 0x10B8010,
  0x10B9200, 0x10B9910, 0x10B9D00, 0x10BA910, 0x10BB000, 0x10C000B, 0x10C4900, 0x10C8011,
  0x10CB300, 0x10CC011, 0x10CF300, 0x10CFA11, 0x10D0014, 0x10D2800, 0x10D3014, 0x10D3A00,
  0x10E600B, 0x10E7F00, 0x10E8017, 0x10EAA00, 0x10EAB17, 0x10EAE00, 0x10EB017, 0x10EB200,
  0x10F0014, 0x10F2800, 0x10F3014, 0x10F5A00, 0x10F7018, 0x10F8A00, 0x10FB017, 0x10FCC00,
  0x10FE015, 0x10FF700, 0x110000C, 0x1104E00, 0x110520C, 0x1107018, 0x1107600, 0x1107F10,
  0x110800B, 0x110C218, 0x110C300, 0x110CD14, 0x110CE00, 0x110D00D, 0x110E900, 0x110F00D,
  0x110FA00, 0x111000D, 0x1113500, 0x111360D, 0x1114414, 0x1114717, 0x1114800, 0x1115010,
  0x1117700, 0x111800D, 0x111C911, 0x111CD10, 0x111CE17, 0x111D00D, 0x111DA10, 0x111DB11,
  0x111E000, 0x111E110, 0x111F500, 0x1120010, 0x1121200, 0x1121310, 0x1123E12, 0x1123F00,
  0x1128011, 0x1128700, 0x1128811, 0x1128900, 0x1128A11, 0x1128E00, 0x1128F11, 0x1129E00,
  0x1129F11, 0x112AA00, 0x112B010, 0x112EB00, 0x112F010, 0x112FA00, 0x1130011, 0x1130110,
  0x1130400, 0x1130510, 0x1130D00, 0x1130F10, 0x1131100, 0x1131310, 0x1132900, 0x1132A10,
  0x1133100, 0x1133210, 0x1133400, 0x1133510, 0x1133A00, 0x1133B14, 0x1133C10, 0x1134500,
  0x1134710, 0x1134900, 0x1134B10, 0x1134E00, 0x1135011, 0x1135100, 0x1135710, 0x1135800,
  0x1135D10, 0x1136400, 0x1136610, 0x1136D00, 0x1137010, 0x1137500, 0x1140012, 0x1145A17,
  0x1145B12, 0x1145C00, 0x1145D12, 0x1145E14, 0x1145F15, 0x1146017, 0x1146200, 0x1148010,
  0x114C800, 0x114D010, 0x114DA00, 0x1158010, 0x115B600, 0x115B810, 0x115CA11, 0x115DE00,
  0x1160010, 0x1164500, 0x1165010, 0x1165A00, 0x1166012, 0x1166D00, 0x116800D, 0x116B815,
  0x116B918, 0x116BA00, 0x116C00D, 0x116CA00, 0x1170011, 0x1171A14, 0x1171B00, 0x1171D11,
  0x1172C00, 0x1173011, 0x1174018, 0x1174700, 0x1180014, 0x1183C00, 0x118A010, 0x118F300,
  0x118FF10, 0x1190017, 0x1190700, 0x1190917, 0x1190A00, 0x1190C17, 0x1191400, 0x1191517,
  0x1191700, 0x1191817, 0x1193600, 0x1193717, 0x1193900, 0x1193B17, 0x1194700, 0x1195017,
  0x1195A00, 0x119A015, 0x119A800, 0x119AA15, 0x119D800, 0x119DA15, 0x119E500, 0x11A0013,
  0x11A4800, 0x11A5013, 0x11A8415, 0x11A8613, 0x11A9D14, 0x11A9E13, 0x11AA300, 0x11AB018,
  0x11AC010, 0x11AF900, 0x11C0012, 0x11C0900, 0x11C0A12, 0x11C3700, 0x11C3812, 0x11C4600,
  0x11C5012, 0x11C6D00, 0x11C7012, 0x11C9000, 0x11C9212, 0x11CA800, 0x11CA912, 0x11CB700,
  0x11D0013, 0x11D0700, 0x11D0813, 0x11D0A00, 0x11D0B13, 0x11D3700, 0x11D3A13, 0x11D3B00,
  0x11D3C13, 0x11D3E00, 0x11D3F13, 0x11D4800, 0x11D5013, 0x11D5A00, 0x11D6014, 0x11D6600,
  0x11D6714, 0x11D6900, 0x11D6A14, 0x11D8F00, 0x11D9014, 0x11D9200, 0x11D9314, 0x11D9900,
  0x11DA014, 0x11DAA00, 0x11EE014, 0x11EF900, 0x11FB017, 0x11FB100, 0x11FC015, 0x11FF200,
  0x11FFF15, 0x1200009, 0x1236F10, 0x1239911, 0x1239A00, 0x1240009, 0x1246310, 0x1246F00,
  0x1247009, 0x1247410, 0x1247500, 0x1248011, 0x1254400, 0x12F9018, 0x12FF300, 0x130000B,
  0x1342F00, 0x1343015, 0x1343900, 0x1440011, 0x1464700, 0x168000C, 0x16A3900, 0x16A4010,
  0x16A5F00, 0x16A6010, 0x16A6A00, 0x16A6E10, 0x16A7018, 0x16ABF00, 0x16AC018, 0x16ACA00,
  0x16AD010, 0x16AEE00, 0x16AF010, 0x16AF600, 0x16B0010, 0x16B4600, 0x16B5010, 0x16B5A00,
  0x16B5B10, 0x16B6200, 0x16B6310, 0x16B7800, 0x16B7D10, 0x16B9000, 0x16E4014, 0x16E9B00,
  0x16F000D, 0x16F4515, 0x16F4B00, 0x16F4F15, 0x16F500D, 0x16F7F15, 0x16F8800, 0x16F8F0D,
  0x16FA000, 0x16FE012, 0x16FE113, 0x16FE215, 0x16FE417, 0x16FE500, 0x16FF017, 0x16FF200,
  0x1700012, 0x187ED14, 0x187F215, 0x187F800, 0x1880012, 0x18AF317, 0x18CD600, 0x18D0017,
  0x18D0900, 0x1AFF018, 0x1AFF400, 0x1AFF518, 0x1AFFC00, 0x1AFFD18, 0x1AFFF00, 0x1B0000C,
  0x1B00213, 0x1B11F18, 0x1B12300, 0x1B15015, 0x1B15300, 0x1B16415, 0x1B16800, 0x1B17013,
  0x1B2FC00, 0x1BC0010, 0x1BC6B00, 0x1BC7010, 0x1BC7D00, 0x1BC8010, 0x1BC8900, 0x1BC9010,
  0x1BC9A00, 0x1BC9C10, 0x1BCA400, 0x1CF0018, 0x1CF2E00, 0x1CF3018, 0x1CF4700, 0x1CF5018,
  0x1CFC400, 0x1D00005, 0x1D0F600, 0x1D10005, 0x1D12700, 0x1D1290A, 0x1D12A05, 0x1D1DE11,
  0x1D1E918, 0x1D1EB00, 0x1D20008, 0x1D24600, 0x1D2E014, 0x1D2F400, 0x1D30007, 0x1D35700,
  0x1D36009, 0x1D37214, 0x1D37900, 0x1D40005, 0x1D45500, 0x1D45605, 0x1D49D00, 0x1D49E05,
  0x1D4A000, 0x1D4A205, 0x1D4A300, 0x1D4A505, 0x1D4A700, 0x1D4A905, 0x1D4AD00, 0x1D4AE05,
  0x1D4BA00, 0x1D4BB05, 0x1D4BC00, 0x1D4BD05, 0x1D4C107, 0x1D4C205, 0x1D4C400, 0x1D4C505,
  0x1D50600, 0x1D50705, 0x1D50B00, 0x1D50D05, 0x1D51500, 0x1D51605, 0x1D51D00, 0x1D51E05,
  0x1D53A00, 0x1D53B05, 0x1D53F00, 0x1D54005, 0x1D54500, 0x1D54605, 0x1D54700, 0x1D54A05,
  0x1D55100, 0x1D55205, 0x1D6A408, 0x1D6A600, 0x1D6A805, 0x1D7CA09, 0x1D7CC00, 0x1D7CE05,
  0x1D80011, 0x1DA8C00, 0x1DA9B11, 0x1DAA000, 0x1DAA111, 0x1DAB000, 0x1DF0018, 0x1DF1F00,
  0x1E00012, 0x1E00700, 0x1E00812, 0x1E01900, 0x1E01B12, 0x1E02200, 0x1E02312, 0x1E02500,
  0x1E02612, 0x1E02B00, 0x1E10015, 0x1E12D00, 0x1E13015, 0x1E13E00, 0x1E14015, 0x1E14A00,
  0x1E14E15, 0x1E15000, 0x1E29018, 0x1E2AF00, 0x1E2C015, 0x1E2FA00, 0x1E2FF15, 0x1E30000,
  0x1E7E018, 0x1E7E700, 0x1E7E818, 0x1E7EC00, 0x1E7ED18, 0x1E7EF00, 0x1E7F018, 0x1E7FF00,
  0x1E80010, 0x1E8C500, 0x1E8C710, 0x1E8D700, 0x1E90012, 0x1E94B15, 0x1E94C00, 0x1E95012,
  0x1E95A00, 0x1E95E12, 0x1E96000, 0x1EC7114, 0x1ECB500, 0x1ED0115, 0x1ED3E00, 0x1EE000D,
  0x1EE0400, 0x1EE050D, 0x1EE2000, 0x1EE210D, 0x1EE2300, 0x1EE240D, 0x1EE2500, 0x1EE270D,
  0x1EE2800, 0x1EE290D, 0x1EE3300, 0x1EE340D, 0x1EE3800, 0x1EE390D, 0x1EE3A00, 0x1EE3B0D,
  0x1EE3C00, 0x1EE420D, 0x1EE4300, 0x1EE470D, 0x1EE4800, 0x1EE490D, 0x1EE4A00, 0x1EE4B0D,
  0x1EE4C00, 0x1EE4D0D, 0x1EE5000, 0x1EE510D, 0x1EE5300, 0x1EE540D, 0x1EE5500, 0x1EE570D,
  0x1EE5800, 0x1EE590D, 0x1EE5A00, 0x1EE5B0D, 0x1EE5C00, 0x1EE5D0D, 0x1EE5E00, 0x1EE5F0D,
  0x1EE6000, 0x1EE610D, 0x1EE6300, 0x1EE640D, 0x1EE6500, 0x1EE670D, 0x1EE6B00, 0x1EE6C0D,
  0x1EE7300, 0x1EE740D, 0x1EE7800, 0x1EE790D, 0x1EE7D00, 0x1EE7E0D, 0x1EE7F00, 0x1EE800D,
  0x1EE8A00, 0x1EE8B0D, 0x1EE9C00, 0x1EEA10D, 0x1EEA400, 0x1EEA50D, 0x1EEAA00, 0x1EEAB0D,
  0x1EEBC00, 0x1EEF00D, 0x1EEF200, 0x1F0000A, 0x1F02C00, 0x1F0300A, 0x1F09400, 0x1F0A00C,
  0x1F0AF00, 0x1F0B10C, 0x1F0BF10, 0x1F0C000, 0x1F0C10C, 0x1F0D000, 0x1F0D10C, 0x1F0E010,
  0x1F0F600, 0x1F1000B, 0x1F10B10, 0x1F10D17, 0x1F1100B, 0x1F12F14, 0x1F1300C, 0x1F1310B,
  0x1F1320C, 0x1F13D0B, 0x1F13E0C, 0x1F13F0B, 0x1F1400C, 0x1F1420B, 0x1F1430C, 0x1F1460B,
  0x1F1470C, 0x1F14A0B, 0x1F14F0C, 0x1F1570B, 0x1F1580C, 0x1F15F0B, 0x1F1600C, 0x1F16A0D,
  0x1F16C15, 0x1F16D17, 0x1F1700C, 0x1F1790B, 0x1F17A0C, 0x1F17B0B, 0x1F17D0C, 0x1F17F0B,
  0x1F1800C, 0x1F18A0B, 0x1F18E0C, 0x1F1900B, 0x1F1910C, 0x1F19B12, 0x1F1AD17, 0x1F1AE00,
  0x1F1E60C, 0x1F2000B, 0x1F2010C, 0x1F20300, 0x1F2100B, 0x1F2320C, 0x1F23B12, 0x1F23C00,
  0x1F2400B, 0x1F24900, 0x1F2500C, 0x1F25200, 0x1F26013, 0x1F26600, 0x1F3000C, 0x1F32110,
  0x1F32D11, 0x1F3300C, 0x1F33610, 0x1F3370C, 0x1F37D10, 0x1F37E11, 0x1F3800C, 0x1F39410,
  0x1F3A00C, 0x1F3C510, 0x1F3C60C, 0x1F3CB10, 0x1F3CF11, 0x1F3D410, 0x1F3E00C, 0x1F3F110,
  0x1F3F811, 0x1F4000C, 0x1F43F10, 0x1F4400C, 0x1F44110, 0x1F4420C, 0x1F4F810, 0x1F4F90C,
  0x1F4FD10, 0x1F4FF11, 0x1F5000C, 0x1F53E10, 0x1F5400D, 0x1F54410, 0x1F54B11, 0x1F5500C,
  0x1F56810, 0x1F57A12, 0x1F57B10, 0x1F5A412, 0x1F5A510, 0x1F5FB0C, 0x1F6000D, 0x1F6010C,
  0x1F6110D, 0x1F6120C, 0x1F6150D, 0x1F6160C, 0x1F6170D, 0x1F6180C, 0x1F6190D, 0x1F61A0C,
  0x1F61B0D, 0x1F61C0C, 0x1F61F0D, 0x1F6200C, 0x1F6260D, 0x1F6280C, 0x1F62C0D, 0x1F62D0C,
  0x1F62E0D, 0x1F6300C, 0x1F6340D, 0x1F6350C, 0x1F64110, 0x1F64311, 0x1F6450C, 0x1F65010,
  0x1F6800C, 0x1F6C610, 0x1F6D011, 0x1F6D112, 0x1F6D313, 0x1F6D515, 0x1F6D617, 0x1F6D800,
  0x1F6DD18, 0x1F6E010, 0x1F6ED00, 0x1F6F010, 0x1F6F412, 0x1F6F713, 0x1F6F914, 0x1F6FA15,
  0x1F6FB17, 0x1F6FD00, 0x1F7000C, 0x1F77400, 0x1F78010, 0x1F7D514, 0x1F7D900, 0x1F7E015,
  0x1F7EC00, 0x1F7F018, 0x1F7F100, 0x1F80010, 0x1F80C00, 0x1F81010, 0x1F84800, 0x1F85010,
  0x1F85A00, 0x1F86010, 0x1F88800, 0x1F89010, 0x1F8AE00, 0x1F8B017, 0x1F8B200, 0x1F90013,
  0x1F90C17, 0x1F90D15, 0x1F91011, 0x1F91912, 0x1F91F13, 0x1F92012, 0x1F92813, 0x1F93012,
  0x1F93113, 0x1F93312, 0x1F93F15, 0x1F94012, 0x1F94C13, 0x1F94D14, 0x1F95012, 0x1F95F13,
  0x1F96C14, 0x1F97115, 0x1F97217, 0x1F97314, 0x1F97717, 0x1F97918, 0x1F97A14, 0x1F97B15,
  0x1F97C14, 0x1F98011, 0x1F98512, 0x1F99213, 0x1F99814, 0x1F9A317, 0x1F9A515, 0x1F9AB17,
  0x1F9AE15, 0x1F9B014, 0x1F9BA15, 0x1F9C011, 0x1F9C114, 0x1F9C315, 0x1F9CB17, 0x1F9CC18,
  0x1F9CD15, 0x1F9D013, 0x1F9E714, 0x1FA0015, 0x1FA5400, 0x1FA6014, 0x1FA6E00, 0x1FA7015,
  0x1FA7417, 0x1FA7500, 0x1FA7815, 0x1FA7B18, 0x1FA7D00, 0x1FA8015, 0x1FA8317, 0x1FA8700,
  0x1FA9015, 0x1FA9617, 0x1FAA918, 0x1FAAD00, 0x1FAB017, 0x1FAB718, 0x1FABB00, 0x1FAC017,
  0x1FAC318, 0x1FAC600, 0x1FAD017, 0x1FAD718, 0x1FADA00, 0x1FAE018, 0x1FAE800, 0x1FAF018,
  0x1FAF700, 0x1FB0017, 0x1FB9300, 0x1FB9417, 0x1FBCB00, 0x1FBF017, 0x1FBFA00, 0x2000005,
  0x2A6D717, 0x2A6DE18, 0x2A6E000, 0x2A7000B, 0x2B73518, 0x2B73900, 0x2B7400C, 0x2B81E00,
  0x2B82011, 0x2CEA200, 0x2CEB013, 0x2EBE100, 0x2F80005, 0x2FA1E00, 0x3000017, 0x3134B00,
  0xE000105, 0xE000200, 0xE002005, 0xE008000, 0xE010007, 0xE01F000, 0xF000002, 0xFFFFE00,
  0x10000002, 0x10FFFE00, 0xFFFFFFFF]

/-- `block_data` (/repo/include/unicode-db/unicode-db.hpp:3658-3712). -/
def block : List Nat := [
  0x1, 0x8001, 0x10001, 0x18001, 0x25001, 0x2B001, 0x30001, 0x37001, 0x40001, 0x50001, 0x53001,
  0x59001, 0x60001, 0x70001, 0x75001, 0x78001, 0x7C001, 0x80001, 0x84001, 0x86001, 0x87001,
  0x8A001, 0x90001, 0x98001, 0xA0001, 0xA8001, 0xB0001, 0xB8001, 0xC0001, 0xC8001, 0xD0001,
  0xD8001, 0xE0001, 0xE8001, 0xF0001, 0x100001, 0x10A001, 0x110001, 0x120001, 0x138001, 0x13A001,
  0x140001, 0x168001, 0x16A001, 0x170001, 0x172001, 0x174001, 0x176001, 0x178001, 0x180001,
  0x18B001, 0x190001, 0x195001, 0x198001, 0x19E001, 0x1A0001, 0x1A2001, 0x1AB001, 0x1B0001,
  0x1B8001, 0x1BC001, 0x1C0001, 0x1C5001, 0x1C8001, 0x1C9001, 0x1CC001, 0x1CD001, 0x1D0001,
  0x1D8001, 0x1DC001, 0x1E0001, 0x1F0001, 0x200001, 0x207001, 0x20A001, 0x20D001, 0x210001,
  0x215001, 0x219001, 0x220001, 0x230001, 0x240001, 0x244001, 0x246001, 0x250001, 0x258001,
  0x25A001, 0x260001, 0x270001, 0x27C001, 0x27F001, 0x280001, 0x290001, 0x298001, 0x2A0001,
  0x2B0001, 0x2C0001, 0x2C6001, 0x2C8001, 0x2D0001, 0x2D3001, 0x2D8001, 0x2DE001, 0x2E0001,
  0x2E8001, 0x2F0001, 0x2FE000, 0x2FF002, 0x300002, 0x304002, 0x30A002, 0x310002, 0x313002,
  0x319002, 0x31A002, 0x31C002, 0x31F002, 0x320002, 0x330002, 0x340002, 0x4DC002, 0x4E0002,
  0xA00002, 0xA49002, 0xA4D002, 0xA50002, 0xA64002, 0xA6A002, 0xA70002, 0xA72002, 0xA80002,
  0xA83002, 0xA84002, 0xA88002, 0xA8E002, 0xA90002, 0xA93002, 0xA96002, 0xA98002, 0xA9E002,
  0xAA0002, 0xAA6002, 0xAA8002, 0xAAE002, 0xAB0002, 0xAB3002, 0xAB7002, 0xABC002, 0xAC0002,
  0xD7B002, 0xD80002, 0xDB8002, 0xDC0002, 0xE00002, 0xF90002, 0xFB0002, 0xFB5002, 0xFE0002,
  0xFE1002, 0xFE2002, 0xFE3002, 0xFE5002, 0xFE7002, 0xFF0002, 0xFFF002, 0x1000002, 0x1008002,
  0x1010002, 0x1014002, 0x1019002, 0x101D002, 0x1020000, 0x1028003, 0x102A003, 0x102E003,
  0x1030003, 0x1033003, 0x1035003, 0x1038003, 0x103A003, 0x103E000, 0x1040004, 0x1045004,
  0x1048004, 0x104B004, 0x1050004, 0x1053004, 0x1057004, 0x105C000, 0x1060005, 0x1078005,
  0x107C000, 0x1080006, 0x1084006, 0x1086006, 0x1088006, 0x108B000, 0x108E007, 0x1090007,
  0x1092007, 0x1094000, 0x1098008, 0x109A008, 0x10A0008, 0x10A6008, 0x10A8008, 0x10AA000,
  0x10AC009, 0x10B0009, 0x10B4009, 0x10B6009, 0x10B8009, 0x10BB000, 0x10C000A, 0x10C5000,
  0x10C800B, 0x10D000B, 0x10D4000, 0x10E600C, 0x10E800C, 0x10EC000, 0x10F000D, 0x10F300D,
  0x10F700D, 0x10FB00D, 0x10FE00D, 0x110000D, 0x110800D, 0x110D00D, 0x111000D, 0x111500D,
  0x111800D, 0x111E00D, 0x112000D, 0x1125000, 0x112800E, 0x112B00E, 0x113000E, 0x1138000,
  0x114000F, 0x114800F, 0x114E000, 0x1158010, 0x1160010, 0x1166010, 0x1168010, 0x116D000,
  0x1170011, 0x1175000, 0x1180012, 0x1185000, 0x118A013, 0x1190013, 0x1196000, 0x119A014,
  0x11A0014, 0x11A5014, 0x11AB014, 0x11AC014, 0x11B0000, 0x11C0015, 0x11C7015, 0x11CC000,
  0x11D0016, 0x11D6016, 0x11DB000, 0x11EE017, 0x11F0000, 0x11FB018, 0x11FC018, 0x1200018,
  0x1240018, 0x1248018, 0x1255000, 0x12F9019, 0x1300019, 0x1343019, 0x1344000, 0x144001A,
  0x1468000, 0x168001B, 0x16A401B, 0x16A701B, 0x16AD01B, 0x16B001B, 0x16B9000, 0x16E401C,
  0x16EA000, 0x16F001D, 0x16FA000, 0x16FE01E, 0x170001E, 0x188001E, 0x18B001E, 0x18D001E,
  0x18D8000, 0x1AFF01F, 0x1B0001F, 0x1B1001F, 0x1B1301F, 0x1B1701F, 0x1B30000, 0x1BC0020,
  0x1BCA020, 0x1BCB000, 0x1CF0021, 0x1CFD000, 0x1D00022, 0x1D10022, 0x1D20022, 0x1D25000,
  0x1D2E023, 0x1D30023, 0x1D36023, 0x1D38000, 0x1D40024, 0x1D80024, 0x1DAB000, 0x1DF0025,
  0x1E00025, 0x1E03000, 0x1E10026, 0x1E15000, 0x1E29027, 0x1E2C027, 0x1E30000, 0x1E7E028,
  0x1E80028, 0x1E8E000, 0x1E90029, 0x1E96000, 0x1EC702A, 0x1ECC000, 0x1ED002B, 0x1ED5000,
  0x1EE002C, 0x1EF0000, 0x1F0002D, 0x1F0302D, 0x1F0A02D, 0x1F1002D, 0x1F2002D, 0x1F3002D,
  0x1F6002D, 0x1F6502D, 0x1F6802D, 0x1F7002D, 0x1F7802D, 0x1F8002D, 0x1F9002D, 0x1FA002D,
  0x1FA702D, 0x1FB002D, 0x1FC0000, 0x200002E, 0x2A6E000, 0x2A7002F, 0x2B7402F, 0x2B8202F,
  0x2CEB02F, 0x2EBF000, 0x2F80030, 0x2FA2000, 0x3000031, 0x3135000, 0xE000032, 0xE008000,
  0xE010033, 0xE01F000, 0xF000034, 0x10000034, 0xFFFFFFFF]

/-- `script_data<0>::scripts_data` (/repo/include/unicode-db/unicode-db.hpp:4037-4272). -/
def script_data_0 : List Nat := [
  0xA1, 0x4145, 0x5BA1, 0x6145, 0x7BA1, 0xAA45, 0xABA1, 0xBA45, 0xBBA1, 0xC045, 0xD7A1, 0xD845,
  0xF7A1, 0xF845, 0x2B9A1, 0x2E045, 0x2E5A1, 0x2EA0D, 0x2ECA1, 0x300A0, 0x3702B, 0x374A1, 0x3752B,
  0x378A2, 0x37A2B, 0x37EA1, 0x37F2B, 0x380A2, 0x3842B, 0x385A1, 0x3862B, 0x387A1, 0x3882B,
  0x38BA2, 0x38C2B, 0x38DA2, 0x38E2B, 0x3A2A2, 0x3A32B, 0x3E218, 0x3F02B, 0x4001B, 0x485A0,
  0x4871B, 0x530A2, 0x53105, 0x557A2, 0x55905, 0x58BA2, 0x58D05, 0x590A2, 0x59132, 0x5C8A2,
  0x5D032, 0x5EBA2, 0x5EF32, 0x5F5A2, 0x60003, 0x605A1, 0x60603, 0x60CA1, 0x60D03, 0x61BA1,
  0x61C03, 0x61FA1, 0x62003, 0x640A1, 0x64103, 0x64BA0, 0x65603, 0x670A0, 0x67103, 0x6DDA1,
  0x6DE03, 0x70085, 0x70EA2, 0x70F85, 0x74BA2, 0x74D85, 0x75003, 0x78090, 0x7B2A2, 0x7C061,
  0x7FBA2, 0x7FD61, 0x80076, 0x82EA2, 0x83076, 0x83FA2, 0x8404F, 0x85CA2, 0x85E4F, 0x85FA2,
  0x86085, 0x86BA2, 0x87003, 0x88FA2, 0x89003, 0x892A2, 0x89803, 0x8E2A1, 0x8E303, 0x9001C,
  0x951A0, 0x9551C, 0x964A1, 0x9661C, 0x9800B, 0x984A2, 0x9850B, 0x98DA2, 0x98F0B, 0x991A2,
  0x9930B, 0x9A9A2, 0x9AA0B, 0x9B1A2, 0x9B20B, 0x9B3A2, 0x9B60B, 0x9BAA2, 0x9BC0B, 0x9C5A2,
  0x9C70B, 0x9C9A2, 0x9CB0B, 0x9CFA2, 0x9D70B, 0x9D8A2, 0x9DC0B, 0x9DEA2, 0x9DF0B, 0x9E4A2,
  0x9E60B, 0x9FFA2, 0xA012D, 0xA04A2, 0xA052D, 0xA0BA2, 0xA0F2D, 0xA11A2, 0xA132D, 0xA29A2,
  0xA2A2D, 0xA31A2, 0xA322D, 0xA34A2, 0xA352D, 0xA37A2, 0xA382D, 0xA3AA2, 0xA3C2D, 0xA3DA2,
  0xA3E2D, 0xA43A2, 0xA472D, 0xA49A2, 0xA4B2D, 0xA4EA2, 0xA512D, 0xA52A2, 0xA592D, 0xA5DA2,
  0xA5E2D, 0xA5FA2, 0xA662D, 0xA77A2, 0xA812C, 0xA84A2, 0xA852C, 0xA8EA2, 0xA8F2C, 0xA92A2,
  0xA932C, 0xAA9A2, 0xAAA2C, 0xAB1A2, 0xAB22C, 0xAB4A2, 0xAB52C, 0xABAA2, 0xABC2C, 0xAC6A2,
  0xAC72C, 0xACAA2, 0xACB2C, 0xACEA2, 0xAD02C, 0xAD1A2, 0xAE02C, 0xAE4A2, 0xAE62C, 0xAF2A2,
  0xAF92C, 0xB00A2, 0xB0166, 0xB04A2, 0xB0566, 0xB0DA2, 0xB0F66, 0xB11A2, 0xB1366, 0xB29A2,
  0xB2A66, 0xB31A2, 0xB3266, 0xB34A2, 0xB3566, 0xB3AA2, 0xB3C66, 0xB45A2, 0xB4766, 0xB49A2,
  0xB4B66, 0xB4EA2, 0xB5566, 0xB58A2, 0xB5C66, 0xB5EA2, 0xB5F66, 0xB64A2, 0xB6666, 0xB78A2,
  0xB828A, 0xB84A2, 0xB858A, 0xB8BA2, 0xB8E8A, 0xB91A2, 0xB928A, 0xB96A2, 0xB998A, 0xB9BA2,
  0xB9C8A, 0xB9DA2, 0xB9E8A, 0xBA0A2, 0xBA38A, 0xBA5A2, 0xBA88A, 0xBABA2, 0xBAE8A, 0xBBAA2,
  0xBBE8A, 0xBC3A2, 0xBC68A, 0xBC9A2, 0xBCA8A, 0xBCEA2, 0xBD08A, 0xBD1A2, 0xBD78A, 0xBD8A2,
  0xBE68A, 0xBFBA2, 0xC008D, 0xC0DA2, 0xC0E8D, 0xC11A2, 0xC128D, 0xC29A2, 0xC2A8D, 0xC3AA2,
  0xC3C8D, 0xC45A2, 0xC468D, 0xC49A2, 0xC4A8D, 0xC4EA2, 0xC558D, 0xC57A2, 0xC588D, 0xC5BA2,
  0xC5D8D, 0xC5EA2, 0xC608D, 0xC64A2, 0xC668D, 0xC70A2, 0xC778D, 0xC8041, 0xC8DA2, 0xC8E41,
  0xC91A2, 0xC9241, 0xCA9A2, 0xCAA41, 0xCB4A2, 0xCB541, 0xCBAA2, 0xCBC41, 0xCC5A2, 0xCC641,
  0xCC9A2, 0xCCA41, 0xCCEA2, 0xCD541, 0xCD7A2, 0xCDD41, 0xCDFA2, 0xCE041, 0xCE4A2, 0xCE641,
  0xCF0A2, 0xCF141, 0xCF3A2, 0xD0056, 0xD0DA2, 0xD0E56, 0xD11A2, 0xD1256, 0xD45A2, 0xD4656,
  0xD49A2, 0xD4A56, 0xD50A2, 0xD5456, 0xD64A2, 0xD6656, 0xD80A2, 0xD817E, 0xD84A2, 0xD857E,
  0xD97A2, 0xD9A7E, 0xDB2A2, 0xDB37E, 0xDBCA2, 0xDBD7E, 0xDBEA2, 0xDC07E, 0xDC7A2, 0xDCA7E,
  0xDCBA2, 0xDCF7E, 0xDD5A2, 0xDD67E, 0xDD7A2, 0xDD87E, 0xDE0A2, 0xDE67E, 0xDF0A2, 0xDF27E,
  0xDF5A2, 0xE0191, 0xE3BA2, 0xE3FA1, 0xE4091, 0xE5CA2, 0xE8144, 0xE83A2, 0xE8444, 0xE85A2,
  0xE8644, 0xE8BA2, 0xE8C44, 0xEA4A2, 0xEA544, 0xEA6A2, 0xEA744, 0xEBEA2, 0xEC044, 0xEC5A2,
  0xEC644, 0xEC7A2, 0xEC844, 0xECEA2, 0xED044, 0xEDAA2, 0xEDC44, 0xEE0A2, 0xF0092, 0xF48A2,
  0xF4992, 0xF6DA2, 0xF7192, 0xF98A2, 0xF9992, 0xFBDA2, 0xFBE92, 0xFCDA2, 0xFCE92, 0xFD5A1,
  0xFD992, 0xFDBA2, 0x10005C, 0x10A025, 0x10C6A2, 0x10C725, 0x10C8A2, 0x10CD25, 0x10CEA2, 0x10D025,
  0x10FBA1, 0x10FC25, 0x11002E, 0x120024, 0x1249A2, 0x124A24, 0x124EA2, 0x125024, 0x1257A2,
  0x125824, 0x1259A2, 0x125A24, 0x125EA2, 0x126024, 0x1289A2, 0x128A24, 0x128EA2, 0x129024,
  0x12B1A2, 0x12B224, 0x12B6A2, 0x12B824, 0x12BFA2, 0x12C024, 0x12C1A2, 0x12C224, 0x12C6A2,
  0x12C824, 0x12D7A2, 0x12D824, 0x1311A2, 0x131224, 0x1316A2, 0x131824, 0x135BA2, 0x135D24,
  0x137DA2, 0x138024, 0x139AA2, 0x13A016, 0x13F6A2, 0x13F816, 0x13FEA2, 0x140013, 0x168063,
  0x169DA2, 0x16A075, 0x16EBA1, 0x16EE75, 0x16F9A2, 0x17008F, 0x1716A2, 0x171F8F, 0x172030,
  0x1735A1, 0x1737A2, 0x174011, 0x1754A2, 0x176086, 0x176DA2, 0x176E86, 0x1771A2, 0x177286,
  0x1774A2, 0x17803E, 0x17DEA2, 0x17E03E, 0x17EAA2, 0x17F03E, 0x17FAA2, 0x180058, 0x1802A1,
  0x180458, 0x1805A1, 0x180658, 0x181AA2, 0x182058, 0x1879A2, 0x188058, 0x18ABA2, 0x18B013,
  0x18F6A2, 0x190047, 0x191FA2, 0x192047, 0x192CA2, 0x193047, 0x193CA2, 0x194047, 0x1941A2,
  0x194447, 0x195088, 0x196EA2, 0x197088, 0x1975A2, 0x198089, 0x19ACA2, 0x19B089, 0x19CAA2,
  0x19D089, 0x19DBA2, 0x19DE89, 0x19E03E, 0x1A0010, 0x1A1CA2, 0x1A1E10, 0x1A2043, 0x1A5FA2,
  0x1A6043, 0x1A7DA2, 0x1A7F43, 0x1A8AA2, 0x1A9043, 0x1A9AA2, 0x1AA043, 0x1AAEA2, 0x1AB0A0,
  0x1ACFA2, 0x1B0007, 0x1B4DA2, 0x1B5007, 0x1B7FA2, 0x1B8083, 0x1BC00A, 0x1BF4A2, 0x1BFC0A,
  0x1C0046, 0x1C38A2, 0x1C3B46, 0x1C4AA2, 0x1C4D46, 0x1C5064, 0x1C801B, 0x1C89A2, 0x1C9025,
  0x1CBBA2, 0x1CBD25, 0x1CC083, 0x1CC8A2, 0x1CD0A0, 0x1CD3A1, 0x1CD4A0, 0x1CE1A1, 0x1CE2A0,
  0x1CE9A1, 0x1CEDA0, 0x1CEEA1, 0x1CF4A0, 0x1CF5A1, 0x1CF8A0, 0x1CFAA1, 0x1CFBA2, 0x1D0045,
  0x1D262B, 0x1D2B1B, 0x1D2C45, 0x1D5D2B, 0x1D6245, 0x1D662B, 0x1D6B45, 0x1D781B, 0x1D7945,
  0x1DBF2B, 0x1DC0A0, 0x1E0045, 0x1F002B, 0x1F16A2, 0x1F182B, 0x1F1EA2, 0x1F202B, 0x1F46A2,
  0x1F482B, 0x1F4EA2, 0x1F502B, 0x1F58A2, 0x1F592B, 0x1F5AA2, 0x1F5B2B, 0x1F5CA2, 0x1F5D2B,
  0x1F5EA2, 0x1F5F2B, 0x1F7EA2, 0x1F802B, 0x1FB5A2, 0x1FB62B, 0x1FC5A2, 0x1FC62B, 0x1FD4A2,
  0x1FD62B, 0x1FDCA2, 0x1FDD2B, 0x1FF0A2, 0x1FF22B, 0x1FF5A2, 0x1FF62B, 0x1FFFA2, 0x2000A1,
  0x200CA0, 0x200EA1, 0x2065A2, 0x2066A1, 0x207145, 0x2072A2, 0x2074A1, 0x207F45, 0x2080A1,
  0x208FA2, 0x209045, 0x209DA2, 0x20A0A1, 0x20C1A2, 0x20D0A0, 0x20F1A2, 0x2100A1, 0x21262B,
  0x2127A1, 0x212A45, 0x212CA1, 0x213245, 0x2133A1, 0x214E45, 0x214FA1, 0x216045, 0x2189A1,
  0x218CA2, 0x2190A1, 0x2427A2, 0x2440A1, 0x244BA2, 0x2460A1, 0x28000F, 0x2900A1, 0x2B74A2,
  0x2B76A1, 0x2B96A2, 0x2B97A1, 0x2C0026, 0x2C6045, 0x2C8018, 0x2CF4A2, 0x2CF918, 0x2D0025,
  0x2D26A2, 0x2D2725, 0x2D28A2, 0x2D2D25, 0x2D2EA2, 0x2D308E, 0x2D68A2, 0x2D6F8E, 0x2D71A2,
  0x2D7F8E, 0x2D8024, 0x2D97A2, 0x2DA024, 0x2DA7A2, 0x2DA824, 0x2DAFA2, 0x2DB024, 0x2DB7A2,
  0x2DB824, 0x2DBFA2, 0x2DC024, 0x2DC7A2, 0x2DC824, 0x2DCFA2, 0x2DD024, 0x2DD7A2, 0x2DD824,
  0x2DDFA2, 0x2DE01B, 0x2E00A1, 0x2E5EA2, 0x2E802F, 0x2E9AA2, 0x2E9B2F, 0x2EF4A2, 0x2F002F,
  0x2FD6A2, 0x2FF0A1, 0x2FFCA2, 0x3000A1, 0x30052F, 0x3006A1, 0x30072F, 0x3008A1, 0x30212F,
  0x302AA0, 0x302E2E, 0x3030A1, 0x30382F, 0x303CA1, 0x3040A2, 0x304133, 0x3097A2, 0x3099A0,
  0x309BA1, 0x309D33, 0x30A0A1, 0x30A13C, 0x30FBA1, 0x30FD3C, 0x3100A2, 0x31050D, 0x3130A2,
  0x31312E, 0x318FA2, 0x3190A1, 0x31A00D, 0x31C0A1, 0x31E4A2, 0x31F03C, 0x32002E, 0x321FA2,
  0x3220A1, 0x32602E, 0x327FA1, 0x32D03C, 0x32FFA1, 0x33003C, 0x3358A1, 0x34002F, 0x4DC0A1,
  0x4E002F, 0xA0009E, 0xA48DA2, 0xA4909E, 0xA4C7A2, 0xA4D04A, 0xA50097, 0xA62CA2, 0xA6401B,
  0xA6A008, 0xA6F8A2, 0xA700A1, 0xA72245, 0xA788A1, 0xA78B45, 0xA7CBA2, 0xA7D045, 0xA7D2A2,
  0xA7D345, 0xA7D4A2, 0xA7D545, 0xA7DAA2, 0xA7F245, 0xA80084, 0xA82DA2, 0xA830A1, 0xA83AA2,
  0xA8406D, 0xA878A2, 0xA88078, 0xA8C6A2, 0xA8CE78, 0xA8DAA2, 0xA8E01C, 0xA9003B, 0xA92EA1,
  0xA92F3B, 0xA93073, 0xA954A2, 0xA95F73, 0xA9602E, 0xA97DA2, 0xA9803A, 0xA9CEA2, 0xA9CFA1,
  0xA9D03A, 0xA9DAA2, 0xA9DE3A, 0xA9E05C, 0xA9FFA2, 0xAA0015, 0xAA37A2, 0xAA4015, 0xAA4EA2,
  0xAA5015, 0xAA5AA2, 0xAA5C15, 0xAA605C, 0xAA808C, 0xAAC3A2, 0xAADB8C, 0xAAE05A, 0xAAF7A2,
  0xAB0124, 0xAB07A2, 0xAB0924, 0xAB0FA2, 0xAB1124, 0xAB17A2, 0xAB2024, 0xAB27A2, 0xAB2824,
  0xAB2FA2, 0xAB3045, 0xAB5BA1, 0xAB5C45, 0xAB652B, 0xAB6645, 0xAB6AA1, 0xAB6CA2, 0xAB7016,
  0xABC05A, 0xABEEA2, 0xABF05A, 0xABFAA2, 0xAC002E, 0xD7A4A2, 0xD7B02E, 0xD7C7A2, 0xD7CB2E,
  0xD7FCA2, 0xF9002F, 0xFA6EA2, 0xFA702F, 0xFADAA2, 0xFB0045, 0xFB07A2, 0xFB1305, 0xFB18A2,
  0xFB1D32, 0xFB37A2, 0xFB3832, 0xFB3DA2, 0xFB3E32, 0xFB3FA2, 0xFB4032, 0xFB42A2, 0xFB4332,
  0xFB45A2, 0xFB4632, 0xFB5003, 0xFBC3A2, 0xFBD303, 0xFD3EA1, 0xFD4003, 0xFD90A2, 0xFD9203,
  0xFDC8A2, 0xFDCF03, 0xFDD0A2, 0xFDF003, 0xFE00A0, 0xFE10A1, 0xFE1AA2, 0xFE20A0, 0xFE2E1B,
  0xFE30A1, 0xFE53A2, 0xFE54A1, 0xFE67A2, 0xFE68A1, 0xFE6CA2, 0xFE7003, 0xFE75A2, 0xFE7603,
  0xFEFDA2, 0xFEFFA1, 0xFF00A2, 0xFF01A1, 0xFF2145, 0xFF3BA1, 0xFF4145, 0xFF5BA1, 0xFF663C,
  0xFF70A1, 0xFF713C, 0xFF9EA1, 0xFFA02E, 0xFFBFA2, 0xFFC22E, 0xFFC8A2, 0xFFCA2E, 0xFFD0A2,
  0xFFD22E, 0xFFD8A2, 0xFFDA2E, 0xFFDDA2, 0xFFE0A1, 0xFFE7A2, 0xFFE8A1, 0xFFEFA2, 0xFFF9A1,
  0xFFFEA2, 0x1000049, 0x1000CA2, 0x1000D49, 0x10027A2, 0x1002849, 0x1003BA2, 0x1003C49, 0x1003EA2,
  0x1003F49, 0x1004EA2, 0x1005049, 0x1005EA2, 0x1008049, 0x100FBA2, 0x10100A1, 0x10103A2,
  0x10107A1, 0x10134A2, 0x10137A1, 0x101402B, 0x1018FA2, 0x10190A1, 0x1019DA2, 0x101A02B,
  0x101A1A2, 0x101D0A1, 0x101FDA0, 0x101FEA2, 0x102804B, 0x1029DA2, 0x102A014, 0x102D1A2,
  0x102E0A0, 0x102E1A1, 0x102FCA2, 0x1030039, 0x10324A2, 0x1032D39, 0x1033029, 0x1034BA2,
  0x103506C, 0x1037BA2, 0x1038096, 0x1039EA2, 0x1039F96, 0x103A09B, 0x103C4A2, 0x103C89B,
  0x103D6A2, 0x104001F, 0x104507A, 0x1048068, 0x1049EA2, 0x104A068, 0x104AAA2, 0x104B067,
  0x104D4A2, 0x104D867, 0x104FCA2, 0x1050022, 0x10528A2, 0x1053001, 0x10564A2, 0x1056F01,
  0x1057098, 0x1057BA2, 0x1057C98, 0x1058BA2, 0x1058C98, 0x10593A2, 0x1059498, 0x10596A2,
  0x1059798, 0x105A2A2, 0x105A398, 0x105B2A2, 0x105B398, 0x105BAA2, 0x105BB98, 0x105BDA2,
  0x1060048, 0x10737A2, 0x1074048, 0x10756A2, 0x1076048, 0x10768A2, 0x1078045, 0x10786A2,
  0x1078745, 0x107B1A2, 0x107B245, 0x107BBA2, 0x108001A, 0x10806A2, 0x108081A, 0x10809A2,
  0x1080A1A, 0x10836A2, 0x108371A, 0x10839A2, 0x1083C1A, 0x1083DA2, 0x1083F1A, 0x1084004,
  0x10856A2, 0x1085704, 0x108606A, 0x108805F, 0x1089FA2, 0x108A75F, 0x108B0A2, 0x108E031,
  0x108F3A2, 0x108F431, 0x108F6A2, 0x108FB31, 0x1090070, 0x1091CA2, 0x1091F70, 0x109204C,
  0x1093AA2, 0x1093F4C, 0x10940A2, 0x1098055, 0x109A054, 0x109B8A2, 0x109BC54, 0x109D0A2,
  0x109D254, 0x10A003D, 0x10A04A2, 0x10A053D, 0x10A07A2, 0x10A0C3D, 0x10A14A2, 0x10A153D,
  0x10A18A2, 0x10A193D, 0x10A36A2, 0x10A383D, 0x10A3BA2, 0x10A3F3D, 0x10A49A2, 0x10A503D,
  0x10A59A2, 0x10A6077, 0x10A805E, 0x10AA0A2, 0x10AC050, 0x10AE7A2, 0x10AEB50, 0x10AF7A2,
  0x10B0006, 0x10B36A2, 0x10B3906, 0x10B4072, 0x10B56A2, 0x10B5872, 0x10B606E, 0x10B73A2,
  0x10B786E, 0x10B806F, 0x10B92A2, 0x10B996F, 0x10B9DA2, 0x10BA96F, 0x10BB0A2, 0x10C0065,
  0x10C49A2, 0x10C8038, 0x10CB3A2, 0x10CC038, 0x10CF3A2, 0x10CFA38, 0x10D0074, 0x10D28A2,
  0x10D3074, 0x10D3AA2, 0x10E6003, 0x10E7FA2, 0x10E809D, 0x10EAAA2, 0x10EAB9D, 0x10EAEA2,
  0x10EB09D, 0x10EB2A2, 0x10F0080, 0x10F28A2, 0x10F307F, 0x10F5AA2, 0x10F7069, 0x10F8AA2,
  0x10FB017, 0x10FCCA2, 0x10FE023, 0x10FF7A2, 0x110000E, 0x1104EA2, 0x110520E, 0x11076A2,
  0x1107F0E, 0x1108042, 0x110C3A2, 0x110CD42, 0x110CEA2, 0x110D081, 0x110E9A2, 0x110F081,
  0x110FAA2, 0x1110012, 0x11135A2, 0x1113612, 0x11148A2, 0x111504D, 0x11177A2, 0x111807B,
  0x111E0A2, 0x111E17E, 0x111F5A2, 0x112003F, 0x11212A2, 0x112133F, 0x1123FA2, 0x112805B,
  0x11287A2, 0x112885B, 0x11289A2, 0x1128A5B, 0x1128EA2, 0x1128F5B, 0x1129EA2, 0x1129F5B,
  0x112AAA2, 0x112B07D, 0x112EBA2, 0x112F07D, 0x112FAA2, 0x113002A, 0x11304A2, 0x113052A,
  0x1130DA2, 0x1130F2A, 0x11311A2, 0x113132A, 0x11329A2, 0x1132A2A, 0x11331A2, 0x113322A,
  0x11334A2, 0x113352A, 0x1133AA2, 0x1133BA0, 0x1133C2A, 0x11345A2, 0x113472A, 0x11349A2,
  0x1134B2A, 0x1134EA2, 0x113502A, 0x11351A2, 0x113572A, 0x11358A2, 0x1135D2A, 0x11364A2,
  0x113662A, 0x1136DA2, 0x113702A, 0x11375A2, 0x1140060, 0x1145CA2, 0x1145D60, 0x11462A2,
  0x1148093, 0x114C8A2, 0x114D093, 0x114DAA2, 0x115807C, 0x115B6A2, 0x115B87C, 0x115DEA2,
  0x1160057, 0x11645A2, 0x1165057, 0x1165AA2, 0x1166058, 0x1166DA2, 0x1168087, 0x116BAA2,
  0x116C087, 0x116CAA2, 0x1170002, 0x1171BA2, 0x1171D02, 0x1172CA2, 0x1173002, 0x11747A2,
  0x118001E, 0x1183CA2, 0x118A099, 0x118F3A2, 0x118FF99, 0x119001D, 0x11907A2, 0x119091D,
  0x1190AA2, 0x1190C1D, 0x11914A2, 0x119151D, 0x11917A2, 0x119181D, 0x11936A2, 0x119371D,
  0x11939A2, 0x1193B1D, 0x11947A2, 0x119501D, 0x1195AA2, 0x119A05D, 0x119A8A2, 0x119AA5D,
  0x119D8A2, 0x119DA5D, 0x119E5A2, 0x11A009F, 0x11A48A2, 0x11A5082, 0x11AA3A2, 0x11AB013,
  0x11AC06B, 0x11AF9A2, 0x11C000C, 0x11C09A2, 0x11C0A0C, 0x11C37A2, 0x11C380C, 0x11C46A2,
  0x11C500C, 0x11C6DA2, 0x11C7051, 0x11C90A2, 0x11C9251, 0x11CA8A2, 0x11CA951, 0x11CB7A2,
  0x11D0028, 0x11D07A2, 0x11D0828, 0x11D0AA2, 0x11D0B28, 0x11D37A2, 0x11D3A28, 0x11D3BA2,
  0x11D3C28, 0x11D3EA2, 0x11D3F28, 0x11D48A2, 0x11D5028, 0x11D5AA2, 0x11D6027, 0x11D66A2,
  0x11D6727, 0x11D69A2, 0x11D6A27, 0x11D8FA2, 0x11D9027, 0x11D92A2, 0x11D9327, 0x11D99A2,
  0x11DA027, 0x11DAAA2, 0x11EE04E, 0x11EF9A2, 0x11FB04A, 0x11FB1A2, 0x11FC08A, 0x11FF2A2,
  0x11FFF8A, 0x120009C, 0x1239AA2, 0x124009C, 0x1246FA2, 0x124709C, 0x12475A2, 0x124809C,
  0x12544A2, 0x12F9019, 0x12FF3A2, 0x1300021, 0x1342FA2, 0x1343021, 0x13439A2, 0x1440034,
  0x14647A2, 0x1680008, 0x16A39A2, 0x16A4059, 0x16A5FA2, 0x16A6059, 0x16A6AA2, 0x16A6E59,
  0x16A7094, 0x16ABFA2, 0x16AC094, 0x16ACAA2, 0x16AD009, 0x16AEEA2, 0x16AF009, 0x16AF6A2,
  0x16B0035, 0x16B46A2, 0x16B5035, 0x16B5AA2, 0x16B5B35, 0x16B62A2, 0x16B6335, 0x16B78A2,
  0x16B7D35, 0x16B90A2, 0x16E4052, 0x16E9BA2, 0x16F0071, 0x16F4BA2, 0x16F4F71, 0x16F88A2,
  0x16F8F71, 0x16FA0A2, 0x16FE08B, 0x16FE162, 0x16FE22F, 0x16FE440, 0x16FE5A2, 0x16FF02F,
  0x16FF2A2, 0x170008B, 0x187F8A2, 0x188008B, 0x18B0040, 0x18CD6A2, 0x18D008B, 0x18D09A2,
  0x1AFF03C, 0x1AFF4A2, 0x1AFF53C, 0x1AFFCA2, 0x1AFFD3C, 0x1AFFFA2, 0x1B0003C, 0x1B00133,
  0x1B1203C, 0x1B123A2, 0x1B15033, 0x1B153A2, 0x1B1643C, 0x1B168A2, 0x1B17062, 0x1B2FCA2,
  0x1BC0020, 0x1BC6BA2, 0x1BC7020, 0x1BC7DA2, 0x1BC8020, 0x1BC89A2, 0x1BC9020, 0x1BC9AA2,
  0x1BC9C20, 0x1BCA0A1, 0x1BCA4A2, 0x1CF00A0, 0x1CF2EA2, 0x1CF30A0, 0x1CF47A2, 0x1CF50A1,
  0x1CFC4A2, 0x1D000A1, 0x1D0F6A2, 0x1D100A1, 0x1D127A2, 0x1D129A1, 0x1D167A0, 0x1D16AA1,
  0x1D17BA0, 0x1D183A1, 0x1D185A0, 0x1D18CA1, 0x1D1AAA0, 0x1D1AEA1, 0x1D1EBA2, 0x1D2002B,
  0x1D246A2, 0x1D2E0A1, 0x1D2F4A2, 0x1D300A1, 0x1D357A2, 0x1D360A1, 0x1D379A2, 0x1D400A1,
  0x1D455A2, 0x1D456A1, 0x1D49DA2, 0x1D49EA1, 0x1D4A0A2, 0x1D4A2A1, 0x1D4A3A2, 0x1D4A5A1,
  0x1D4A7A2, 0x1D4A9A1, 0x1D4ADA2, 0x1D4AEA1, 0x1D4BAA2, 0x1D4BBA1, 0x1D4BCA2, 0x1D4BDA1,
  0x1D4C4A2, 0x1D4C5A1, 0x1D506A2, 0x1D507A1, 0x1D50BA2, 0x1D50DA1, 0x1D515A2, 0x1D516A1,
  0x1D51DA2, 0x1D51EA1, 0x1D53AA2, 0x1D53BA1, 0x1D53FA2, 0x1D540A1, 0x1D545A2, 0x1D546A1,
  0x1D547A2, 0x1D54AA1, 0x1D551A2, 0x1D552A1, 0x1D6A6A2, 0x1D6A8A1, 0x1D7CCA2, 0x1D7CEA1,
  0x1D80079, 0x1DA8CA2, 0x1DA9B79, 0x1DAA0A2, 0x1DAA179, 0x1DAB0A2, 0x1DF0045, 0x1DF1FA2,
  0x1E00026, 0x1E007A2, 0x1E00826, 0x1E019A2, 0x1E01B26, 0x1E022A2, 0x1E02326, 0x1E025A2,
  0x1E02626, 0x1E02BA2, 0x1E10036, 0x1E12DA2, 0x1E13036, 0x1E13EA2, 0x1E14036, 0x1E14AA2,
  0x1E14E36, 0x1E150A2, 0x1E29095, 0x1E2AFA2, 0x1E2C09A, 0x1E2FAA2, 0x1E2FF9A, 0x1E300A2,
  0x1E7E024, 0x1E7E7A2, 0x1E7E824, 0x1E7ECA2, 0x1E7ED24, 0x1E7EFA2, 0x1E7F024, 0x1E7FFA2,
  0x1E80053, 0x1E8C5A2, 0x1E8C753, 0x1E8D7A2, 0x1E90000, 0x1E94CA2, 0x1E95000, 0x1E95AA2,
  0x1E95E00, 0x1E960A2, 0x1EC71A1, 0x1ECB5A2, 0x1ED01A1, 0x1ED3EA2, 0x1EE0003, 0x1EE04A2,
  0x1EE0503, 0x1EE20A2, 0x1EE2103, 0x1EE23A2, 0x1EE2403, 0x1EE25A2, 0x1EE2703, 0x1EE28A2,
  0x1EE2903, 0x1EE33A2, 0x1EE3403, 0x1EE38A2, 0x1EE3903, 0x1EE3AA2, 0x1EE3B03, 0x1EE3CA2,
  0x1EE4203, 0x1EE43A2, 0x1EE4703, 0x1EE48A2, 0x1EE4903, 0x1EE4AA2, 0x1EE4B03, 0x1EE4CA2,
  0x1EE4D03, 0x1EE50A2, 0x1EE5103, 0x1EE53A2, 0x1EE5403, 0x1EE55A2, 0x1EE5703, 0x1EE58A2,
  0x1EE5903, 0x1EE5AA2, 0x1EE5B03, 0x1EE5CA2, 0x1EE5D03, 0x1EE5EA2, 0x1EE5F03, 0x1EE60A2,
  0x1EE6103, 0x1EE63A2, 0x1EE6403, 0x1EE65A2, 0x1EE6703, 0x1EE6BA2, 0x1EE6C03, 0x1EE73A2,
  0x1EE7403, 0x1EE78A2, 0x1EE7903, 0x1EE7DA2, 0x1EE7E03, 0x1EE7FA2, 0x1EE8003, 0x1EE8AA2,
  0x1EE8B03, 0x1EE9CA2, 0x1EEA103, 0x1EEA4A2, 0x1EEA503, 0x1EEAAA2, 0x1EEAB03, 0x1EEBCA2,
  0x1EEF003, 0x1EEF2A2, 0x1F000A1, 0x1F02CA2, 0x1F030A1, 0x1F094A2, 0x1F0A0A1, 0x1F0AFA2,
  0x1F0B1A1, 0x1F0C0A2, 0x1F0C1A1, 0x1F0D0A2, 0x1F0D1A1, 0x1F0F6A2, 0x1F100A1, 0x1F1AEA2,
  0x1F1E6A1, 0x1F20033, 0x1F201A1, 0x1F203A2, 0x1F210A1, 0x1F23CA2, 0x1F240A1, 0x1F249A2,
  0x1F250A1, 0x1F252A2, 0x1F260A1, 0x1F266A2, 0x1F300A1, 0x1F6D8A2, 0x1F6DDA1, 0x1F6EDA2,
  0x1F6F0A1, 0x1F6FDA2, 0x1F700A1, 0x1F774A2, 0x1F780A1, 0x1F7D9A2, 0x1F7E0A1, 0x1F7ECA2,
  0x1F7F0A1, 0x1F7F1A2, 0x1F800A1, 0x1F80CA2, 0x1F810A1, 0x1F848A2, 0x1F850A1, 0x1F85AA2,
  0x1F860A1, 0x1F888A2, 0x1F890A1, 0x1F8AEA2, 0x1F8B0A1, 0x1F8B2A2, 0x1F900A1, 0x1FA54A2,
  0x1FA60A1, 0x1FA6EA2, 0x1FA70A1, 0x1FA75A2, 0x1FA78A1, 0x1FA7DA2, 0x1FA80A1, 0x1FA87A2,
  0x1FA90A1, 0x1FAADA2, 0x1FAB0A1, 0x1FABBA2, 0x1FAC0A1, 0x1FAC6A2, 0x1FAD0A1, 0x1FADAA2,
  0x1FAE0A1, 0x1FAE8A2, 0x1FAF0A1, 0x1FAF7A2, 0x1FB00A1, 0x1FB93A2, 0x1FB94A1, 0x1FBCBA2,
  0x1FBF0A1, 0x1FBFAA2, 0x200002F, 0x2A6E0A2, 0x2A7002F, 0x2B739A2, 0x2B7402F, 0x2B81EA2,
  0x2B8202F, 0x2CEA2A2, 0x2CEB02F, 0x2EBE1A2, 0x2F8002F, 0x2FA1EA2, 0x300002F, 0x3134BA2,
  0xE0001A1, 0xE0002A2, 0xE0020A1, 0xE0080A2, 0xE0100A0, 0xE01F0A2, 0xFFFFFFFF]

/-- `script_data<1>::scripts_data` (/repo/include/unicode-db/unicode-db.hpp:4276-4302). -/
def script_data_1 : List Nat := [
  0xA2, 0x3422B, 0x343A2, 0x3452B, 0x346A2, 0x36345, 0x370A2, 0x4831B, 0x488A2, 0x60C03, 0x60DA2,
  0x61B03, 0x61DA2, 0x61F00, 0x620A2, 0x64000, 0x641A2, 0x64B03, 0x656A2, 0x66003, 0x66AA2,
  0x67003, 0x671A2, 0x6D403, 0x6D5A2, 0x9510B, 0x953A2, 0x9640B, 0x9661C, 0x970A2, 0x9E60B,
  0x9F0A2, 0xA662D, 0xA70A2, 0xAE62C, 0xAF0A2, 0xBE62A, 0xBF4A2, 0xCE641, 0xCF0A2, 0x104012,
  0x104AA2, 0x10FB25, 0x10FCA2, 0x173511, 0x1737A2, 0x180258, 0x1804A2, 0x180558, 0x1806A2,
  0x1CD00B, 0x1CD11C, 0x1CD20B, 0x1CD31C, 0x1CD50B, 0x1CD71C, 0x1CD80B, 0x1CD91C, 0x1CE10B,
  0x1CE21C, 0x1CEA0B, 0x1CEB1C, 0x1CED0B, 0x1CEE1C, 0x1CF20B, 0x1CF31C, 0x1CF50B, 0x1CF81C,
  0x1CFA5D, 0x1CFBA2, 0x1DC02B, 0x1DC2A2, 0x1DF81B, 0x1DF9A2, 0x1DFA85, 0x1DFBA2, 0x202F45,
  0x2030A2, 0x20F01C, 0x20F1A2, 0x2E431B, 0x2E44A2, 0x30010D, 0x3004A2, 0x30062F, 0x3007A2,
  0x30080D, 0x3012A2, 0x30130D, 0x3020A2, 0x302A0D, 0x302EA2, 0x30300D, 0x303133, 0x3036A2,
  0x30370D, 0x3038A2, 0x303C2F, 0x3040A2, 0x309933, 0x309DA2, 0x30A033, 0x30A1A2, 0x30FB0D,
  0x30FC33, 0x30FDA2, 0x31902F, 0x31A0A2, 0x31C02F, 0x31E4A2, 0x32202F, 0x3248A2, 0x32802F,
  0x32B1A2, 0x32C02F, 0x32CCA2, 0x32FF2F, 0x3300A2, 0x33582F, 0x3371A2, 0x337B2F, 0x3380A2,
  0x33E02F, 0x33FFA2, 0xA66F1B, 0xA670A2, 0xA7002F, 0xA708A2, 0xA8301C, 0xA83AA2, 0xA8F10B,
  0xA8F2A2, 0xA8F31C, 0xA8F4A2, 0xA92E3B, 0xA92FA2, 0xA9CF10, 0xA9D0A2, 0xFD3E03, 0xFD40A2,
  0xFDF203, 0xFDF3A2, 0xFDFD03, 0xFDFEA2, 0xFE450D, 0xFE47A2, 0xFF610D, 0xFF66A2, 0xFF7033,
  0xFF71A2, 0xFF9E33, 0xFFA0A2, 0x1010019, 0x101021A, 0x10103A2, 0x101071A, 0x10134A2, 0x101371A,
  0x10140A2, 0x102E003, 0x102FCA2, 0x10AF250, 0x10AF3A2, 0x113012A, 0x11302A2, 0x113032A,
  0x11304A2, 0x1133B2A, 0x1133DA2, 0x11FD02A, 0x11FD2A2, 0x11FD32A, 0x11FD4A2, 0x1BCA020,
  0x1BCA4A2, 0x1D3602F, 0x1D372A2, 0x1F2502F, 0x1F252A2, 0xFFFFFFFF]

/-- `script_data<2>::scripts_data` (/repo/include/unicode-db/unicode-db.hpp:4306-4329). -/
def script_data_2 : List Nat := [
  0xA2, 0x4836C, 0x48426, 0x48545, 0x48726, 0x488A2, 0x60C61, 0x60DA2, 0x61B61, 0x61C85, 0x61DA2,
  0x61F03, 0x620A2, 0x64003, 0x641A2, 0x64B85, 0x656A2, 0x66090, 0x66AA2, 0x67085, 0x671A2,
  0x6D474, 0x6D5A2, 0x9511C, 0x953A2, 0x9641C, 0x9661E, 0x970A2, 0x9E612, 0x9F0A2, 0xA665B,
  0xA70A2, 0xAE63F, 0xAF0A2, 0xBE68A, 0xBF4A2, 0xCE65D, 0xCF0A2, 0x10405C, 0x104AA2, 0x10FB45,
  0x10FCA2, 0x173530, 0x1737A2, 0x18026D, 0x1804A2, 0x18056D, 0x1806A2, 0x1CD01C, 0x1CD1A2,
  0x1CD21C, 0x1CD32A, 0x1CD4A2, 0x1CD51C, 0x1CD77B, 0x1CD81C, 0x1CD97B, 0x1CDA41, 0x1CDBA2,
  0x1CDC7B, 0x1CDEA2, 0x1CE07B, 0x1CE11C, 0x1CE2A2, 0x1CE95D, 0x1CEA1C, 0x1CEBA2, 0x1CED1C,
  0x1CEEA2, 0x1CF21C, 0x1CF32A, 0x1CF51C, 0x1CF7A2, 0x1CF82A, 0x1CFAA2, 0x1DF885, 0x1DF9A2,
  0x202F58, 0x2030A2, 0x20F02A, 0x20F1A2, 0x2E4326, 0x2E44A2, 0x30012E, 0x3004A2, 0x30082E,
  0x3012A2, 0x30132E, 0x3020A2, 0x302A2F, 0x302EA2, 0x30302E, 0x30313C, 0x3036A2, 0x30372E,
  0x3038A2, 0x303C33, 0x303EA2, 0x30993C, 0x309DA2, 0x30A03C, 0x30A1A2, 0x30FB2E, 0x30FC3C,
  0x30FDA2, 0xA66F26, 0xA670A2, 0xA70045, 0xA708A2, 0xA8301E, 0xA83AA2, 0xA8F11C, 0xA8F2A2,
  0xA8F38A, 0xA8F4A2, 0xA92E45, 0xA92FA2, 0xA9CF3A, 0xA9D0A2, 0xFD3E61, 0xFD40A2, 0xFDF290,
  0xFDF3A2, 0xFDFD90, 0xFDFEA2, 0xFE452E, 0xFE47A2, 0xFF612E, 0xFF66A2, 0xFF703C, 0xFF71A2,
  0xFF9E3C, 0xFFA0A2, 0x101001A, 0x1010249, 0x10103A2, 0x1010748, 0x10134A2, 0x1013749, 0x10140A2,
  0x102E018, 0x102FCA2, 0x10AF269, 0x10AF3A2, 0x113018A, 0x11302A2, 0x113038A, 0x11304A2,
  0x1133B8A, 0x1133DA2, 0x11FD08A, 0x11FD2A2, 0x11FD38A, 0x11FD4A2, 0xFFFFFFFF]

/-- `script_data<3>::scripts_data` (/repo/include/unicode-db/unicode-db.hpp:4333-4342). -/
def script_data_3 : List Nat := [
  0xA2, 0x60C74, 0x60DA2, 0x61B74, 0x61C90, 0x61DA2, 0x61F61, 0x620A2, 0x6404F, 0x641A2, 0x6609D,
  0x66AA2, 0x9512A, 0x953A2, 0x9641E, 0x96642, 0x970A2, 0x9E684, 0x9F0A2, 0x104088, 0x104AA2,
  0x173586, 0x1737A2, 0x1CD02A, 0x1CD1A2, 0x1CD22A, 0x1CD3A2, 0x1CDA56, 0x1CDBA2, 0x1CF22A,
  0x1CF3A2, 0x1CF441, 0x1CF5A2, 0x20F045, 0x20F1A2, 0x30012F, 0x3004A2, 0x30082F, 0x3012A2,
  0x30132F, 0x3020A2, 0x30302F, 0x3031A2, 0x30372F, 0x3038A2, 0x303C3C, 0x303EA2, 0x30FB2F,
  0x30FCA2, 0xA8302C, 0xA83AA2, 0xA92E5C, 0xA92FA2, 0xFE452F, 0xFE47A2, 0xFF612F, 0xFF66A2,
  0x1010049, 0x10102A2, 0x1010749, 0x10134A2, 0xFFFFFFFF]

/-- `script_data<4>::scripts_data` (/repo/include/unicode-db/unicode-db.hpp:4346-4353). -/
def script_data_4 : List Nat := [
  0xA2, 0x60C85, 0x60DA2, 0x61B85, 0x61CA2, 0x61F74, 0x620A2, 0x64050, 0x641A2, 0x9512C, 0x953A2,
  0x96427, 0x9664D, 0x970A2, 0x17358F, 0x1737A2, 0x1CD041, 0x1CD1A2, 0x1CD241, 0x1CD3A2, 0x1CDA66,
  0x1CDBA2, 0x1CF241, 0x1CF3A2, 0x300133, 0x3004A2, 0x300833, 0x3012A2, 0x301333, 0x3020A2,
  0x303033, 0x3031A2, 0x303733, 0x3038A2, 0x30FB33, 0x30FCA2, 0xA8302D, 0xA83AA2, 0xFE4533,
  0xFE47A2, 0xFF6133, 0xFF66A2, 0xFFFFFFFF]

/-- `script_data<5>::scripts_data` (/repo/include/unicode-db/unicode-db.hpp:4357-4363). -/
def script_data_5 : List Nat := [
  0xA2, 0x60C90, 0x60DA2, 0x61B90, 0x61CA2, 0x61F85, 0x620A2, 0x64069, 0x641A2, 0x9512D, 0x953A2,
  0x96428, 0x966A2, 0x1CDA8A, 0x1CDBA2, 0x1CF25D, 0x1CF3A2, 0x30013C, 0x3004A2, 0x30083C, 0x3012A2,
  0x30133C, 0x3020A2, 0x30303C, 0x3031A2, 0x30373C, 0x3038A2, 0x30FB3C, 0x30FCA2, 0xA8303F,
  0xA83AA2, 0xFE453C, 0xFE47A2, 0xFF613C, 0xFF66A2, 0xFFFFFFFF]

/-- `script_data<6>::scripts_data` (/repo/include/unicode-db/unicode-db.hpp:4367-4372). -/
def script_data_6 : List Nat := [
  0xA2, 0x60C9D, 0x60DA2, 0x61B9D, 0x61CA2, 0x61F90, 0x620A2, 0x6406F, 0x641A2, 0x95141, 0x953A2,
  0x9642A, 0x966A2, 0x1CDA8D, 0x1CDBA2, 0x1CF266, 0x1CF3A2, 0x30019E, 0x3003A2, 0x30089E, 0x3012A2,
  0x30149E, 0x301CA2, 0x30FB9E, 0x30FCA2, 0xA83041, 0xA83642, 0xA83AA2, 0xFF619E, 0xFF66A2,
  0xFFFFFFFF]

/-- `script_data<7>::scripts_data` (/repo/include/unicode-db/unicode-db.hpp:4376-4379). -/
def script_data_7 : List Nat := [
  0xA2, 0x61F9D, 0x620A2, 0x64074, 0x641A2, 0x95145, 0x953A2, 0x9642C, 0x966A2, 0x1CF28D, 0x1CF3A2,
  0xA83042, 0xA8364D, 0xA83AA2, 0xFFFFFFFF]

/-- `script_data<8>::scripts_data` (/repo/include/unicode-db/unicode-db.hpp:4383-4385). -/
def script_data_8 : List Nat := [
  0xA2, 0x6407F, 0x641A2, 0x95156, 0x953A2, 0x9642D, 0x966A2, 0x1CF293, 0x1CF3A2, 0xA8304D,
  0xA83657, 0xA83AA2, 0xFFFFFFFF]

/-- `script_data<9>::scripts_data` (/repo/include/unicode-db/unicode-db.hpp:4389-4391). -/
def script_data_9 : List Nat := [
  0xA2, 0x64085, 0x641A2, 0x95166, 0x953A2, 0x96441, 0x966A2, 0xA83056, 0xA83357, 0xA8367D,
  0xA83AA2, 0xFFFFFFFF]

/-- `script_data<10>::scripts_data` (/repo/include/unicode-db/unicode-db.hpp:4395-4397). -/
def script_data_10 : List Nat := [
  0xA2, 0x9517B, 0x9528A, 0x953A2, 0x9644D, 0x96547, 0x966A2, 0xA83057, 0xA8335D, 0xA83687,
  0xA83AA2, 0xFFFFFFFF]

/-- `script_data<11>::scripts_data` (/repo/include/unicode-db/unicode-db.hpp:4401-4403). -/
def script_data_11 : List Nat := [
  0xA2, 0x9518A, 0x9528D, 0x953A2, 0x96456, 0x9654D, 0x966A2, 0xA8305D, 0xA8337D, 0xA83693,
  0xA83AA2, 0xFFFFFFFF]

/-- `script_data<12>::scripts_data` (/repo/include/unicode-db/unicode-db.hpp:4407-4409). -/
def script_data_12 : List Nat := [
  0xA2, 0x9518D, 0x95293, 0x953A2, 0x9645D, 0x96556, 0x966A2, 0xA8307D, 0xA83387, 0xA836A2,
  0xFFFFFFFF]

/-- `script_data<13>::scripts_data` (/repo/include/unicode-db/unicode-db.hpp:4413-4415). -/
def script_data_13 : List Nat := [0xA2, 0x95193, 0x952A2, 0x96466, 0x9655D, 0x966A2, 0xA83087, 0xA83393, 0xA836A2, 0xFFFFFFFF]

/-- `script_data<14>::scripts_data` (/repo/include/unicode-db/unicode-db.hpp:4419-4420). -/
def script_data_14 : List Nat := [0xA2, 0x9647D, 0x96566, 0x966A2, 0xA83093, 0xA833A2, 0xFFFFFFFF]

/-- `script_data<15>::scripts_data` (/repo/include/unicode-db/unicode-db.hpp:4424-4425). -/
def script_data_15 : List Nat := [0xA2, 0x9647E, 0x9657D, 0x966A2, 0xFFFFFFFF]

/-- `script_data<16>::scripts_data` (/repo/include/unicode-db/unicode-db.hpp:4429-4430). -/
def script_data_16 : List Nat := [0xA2, 0x96484, 0x9657E, 0x966A2, 0xFFFFFFFF]

/-- `script_data<17>::scripts_data` (/repo/include/unicode-db/unicode-db.hpp:4434-4435). -/
def script_data_17 : List Nat := [0xA2, 0x96487, 0x96584, 0x966A2, 0xFFFFFFFF]

/-- `script_data<18>::scripts_data` (/repo/include/unicode-db/unicode-db.hpp:4439-4440). -/
def script_data_18 : List Nat := [0xA2, 0x9648A, 0x96587, 0x966A2, 0xFFFFFFFF]

/-- `script_data<19>::scripts_data` (/repo/include/unicode-db/unicode-db.hpp:4444-4445). -/
def script_data_19 : List Nat := [0xA2, 0x9648D, 0x9658A, 0x966A2, 0xFFFFFFFF]

/-- `script_data<20>::scripts_data` (/repo/include/unicode-db/unicode-db.hpp:4449-4450). -/
def script_data_20 : List Nat := [0xA2, 0x96493, 0x9658D, 0x966A2, 0xFFFFFFFF]

/-- `script_data<21>::scripts_data` (/repo/include/unicode-db/unicode-db.hpp:4454-4455). -/
def script_data_21 : List Nat := [0xA2, 0x96593, 0x966A2, 0xFFFFFFFF]

end Ctre.Ucd

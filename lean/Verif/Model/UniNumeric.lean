import Verif.Model.UniLookup
/-
The numeric values of the Unicode database: `uni::cp_numeric_value`.
Source: /repo/include/unicode-db/unicode-db.hpp:44-58, 188-202, 375-391, 4493-5059, 7495-7521.
The tables are generated from the source text, number by number.
-/
set_option maxRecDepth 20000
namespace Ctre.Ucd

/-- `numeric_data8` (/repo/include/unicode-db/unicode-db.hpp:4493-4733): the code point and, in the last eight bits, its number. -/
def numericData8 : List Nat := [
  0x3000, 0x3101, 0x3202, 0x3303, 0x3404, 0x3505, 0x3606, 0x3707, 0x3808, 0x3909, 0xB202, 0xB303, 0xB901, 0xBC01,
  0xBD01, 0xBE03, 0x66000, 0x66101, 0x66202, 0x66303, 0x66404, 0x66505, 0x66606, 0x66707, 0x66808, 0x66909, 0x6F000,
  0x6F101, 0x6F202, 0x6F303, 0x6F404, 0x6F505, 0x6F606, 0x6F707, 0x6F808, 0x6F909, 0x7C000, 0x7C101, 0x7C202,
  0x7C303, 0x7C404, 0x7C505, 0x7C606, 0x7C707, 0x7C808, 0x7C909, 0x96600, 0x96701, 0x96802, 0x96903, 0x96A04,
  0x96B05, 0x96C06, 0x96D07, 0x96E08, 0x96F09, 0x9E600, 0x9E701, 0x9E802, 0x9E903, 0x9EA04, 0x9EB05, 0x9EC06,
  0x9ED07, 0x9EE08, 0x9EF09, 0x9F401, 0x9F501, 0x9F603, 0x9F701, 0x9F803, 0x9F910, 0xA6600, 0xA6701, 0xA6802,
  0xA6903, 0xA6A04, 0xA6B05, 0xA6C06, 0xA6D07, 0xA6E08, 0xA6F09, 0xAE600, 0xAE701, 0xAE802, 0xAE903, 0xAEA04,
  0xAEB05, 0xAEC06, 0xAED07, 0xAEE08, 0xAEF09, 0xB6600, 0xB6701, 0xB6802, 0xB6903, 0xB6A04, 0xB6B05, 0xB6C06,
  0xB6D07, 0xB6E08, 0xB6F09, 0xB7201, 0xB7301, 0xB7403, 0xB7501, 0xB7601, 0xB7703, 0xBE600, 0xBE701, 0xBE802,
  0xBE903, 0xBEA04, 0xBEB05, 0xBEC06, 0xBED07, 0xBEE08, 0xBEF09, 0xBF00A, 0xBF164, 0xC6600, 0xC6701, 0xC6802,
  0xC6903, 0xC6A04, 0xC6B05, 0xC6C06, 0xC6D07, 0xC6E08, 0xC6F09, 0xC7800, 0xC7901, 0xC7A02, 0xC7B03, 0xC7C01,
  0xC7D02, 0xC7E03, 0xCE600, 0xCE701, 0xCE802, 0xCE903, 0xCEA04, 0xCEB05, 0xCEC06, 0xCED07, 0xCEE08, 0xCEF09,
  0xD5801, 0xD5901, 0xD5A03, 0xD5B01, 0xD5C01, 0xD5D03, 0xD5E01, 0xD6600, 0xD6701, 0xD6802, 0xD6903, 0xD6A04,
  0xD6B05, 0xD6C06, 0xD6D07, 0xD6E08, 0xD6F09, 0xD700A, 0xD7164, 0xD7301, 0xD7401, 0xD7503, 0xD7601, 0xD7701,
  0xD7803, 0xDE600, 0xDE701, 0xDE802, 0xDE903, 0xDEA04, 0xDEB05, 0xDEC06, 0xDED07, 0xDEE08, 0xDEF09, 0xE5000,
  0xE5101, 0xE5202, 0xE5303, 0xE5404, 0xE5505, 0xE5606, 0xE5707, 0xE5808, 0xE5909, 0xED000, 0xED101, 0xED202,
  0xED303, 0xED404, 0xED505, 0xED606, 0xED707, 0xED808, 0xED909, 0xF2000, 0xF2101, 0xF2202, 0xF2303, 0xF2404,
  0xF2505, 0xF2606, 0xF2707, 0xF2808, 0xF2909, 0xF2A01, 0xF2B03, 0xF2C05, 0xF2D07, 0xF2E09, 0xF2F0B, 0xF300D,
  0xF310F, 0xF3211, 0x104000, 0x104101, 0x104202, 0x104303, 0x104404, 0x104505, 0x104606, 0x104707, 0x104808,
  0x104909, 0x109000, 0x109101, 0x109202, 0x109303, 0x109404, 0x109505, 0x109606, 0x109707, 0x109808, 0x109909,
  0x136901, 0x136A02, 0x136B03, 0x136C04, 0x136D05, 0x136E06, 0x136F07, 0x137008, 0x137109, 0x13720A, 0x137314,
  0x13741E, 0x137528, 0x137632, 0x13773C, 0x137846, 0x137950, 0x137A5A, 0x137B64, 0x16EE11, 0x16EF12, 0x16F013,
  0x17E000, 0x17E101, 0x17E202, 0x17E303, 0x17E404, 0x17E505, 0x17E606, 0x17E707, 0x17E808, 0x17E909, 0x17F000,
  0x17F101, 0x17F202, 0x17F303, 0x17F404, 0x17F505, 0x17F606, 0x17F707, 0x17F808, 0x17F909, 0x181000, 0x181101,
  0x181202, 0x181303, 0x181404, 0x181505, 0x181606, 0x181707, 0x181808, 0x181909, 0x194600, 0x194701, 0x194802,
  0x194903, 0x194A04, 0x194B05, 0x194C06, 0x194D07, 0x194E08, 0x194F09, 0x19D000, 0x19D101, 0x19D202, 0x19D303,
  0x19D404, 0x19D505, 0x19D606, 0x19D707, 0x19D808, 0x19D909, 0x19DA01, 0x1A8000, 0x1A8101, 0x1A8202, 0x1A8303,
  0x1A8404, 0x1A8505, 0x1A8606, 0x1A8707, 0x1A8808, 0x1A8909, 0x1A9000, 0x1A9101, 0x1A9202, 0x1A9303, 0x1A9404,
  0x1A9505, 0x1A9606, 0x1A9707, 0x1A9808, 0x1A9909, 0x1B5000, 0x1B5101, 0x1B5202, 0x1B5303, 0x1B5404, 0x1B5505,
  0x1B5606, 0x1B5707, 0x1B5808, 0x1B5909, 0x1BB000, 0x1BB101, 0x1BB202, 0x1BB303, 0x1BB404, 0x1BB505, 0x1BB606,
  0x1BB707, 0x1BB808, 0x1BB909, 0x1C4000, 0x1C4101, 0x1C4202, 0x1C4303, 0x1C4404, 0x1C4505, 0x1C4606, 0x1C4707,
  0x1C4808, 0x1C4909, 0x1C5000, 0x1C5101, 0x1C5202, 0x1C5303, 0x1C5404, 0x1C5505, 0x1C5606, 0x1C5707, 0x1C5808,
  0x1C5909, 0x207000, 0x207404, 0x207505, 0x207606, 0x207707, 0x207808, 0x207909, 0x208000, 0x208101, 0x208202,
  0x208303, 0x208404, 0x208505, 0x208606, 0x208707, 0x208808, 0x208909, 0x215001, 0x215101, 0x215201, 0x215301,
  0x215402, 0x215501, 0x215602, 0x215703, 0x215804, 0x215901, 0x215A05, 0x215B01, 0x215C03, 0x215D05, 0x215E07,
  0x215F01, 0x216001, 0x216102, 0x216203, 0x216304, 0x216405, 0x216506, 0x216607, 0x216708, 0x216809, 0x21690A,
  0x216A0B, 0x216B0C, 0x216C32, 0x216D64, 0x217001, 0x217102, 0x217203, 0x217304, 0x217405, 0x217506, 0x217607,
  0x217708, 0x217809, 0x21790A, 0x217A0B, 0x217B0C, 0x217C32, 0x217D64, 0x218506, 0x218632, 0x218900, 0x246001,
  0x246102, 0x246203, 0x246304, 0x246405, 0x246506, 0x246607, 0x246708, 0x246809, 0x24690A, 0x246A0B, 0x246B0C,
  0x246C0D, 0x246D0E, 0x246E0F, 0x246F10, 0x247011, 0x247112, 0x247213, 0x247314, 0x247401, 0x247502, 0x247603,
  0x247704, 0x247805, 0x247906, 0x247A07, 0x247B08, 0x247C09, 0x247D0A, 0x247E0B, 0x247F0C, 0x24800D, 0x24810E,
  0x24820F, 0x248310, 0x248411, 0x248512, 0x248613, 0x248714, 0x248801, 0x248902, 0x248A03, 0x248B04, 0x248C05,
  0x248D06, 0x248E07, 0x248F08, 0x249009, 0x24910A, 0x24920B, 0x24930C, 0x24940D, 0x24950E, 0x24960F, 0x249710,
  0x249811, 0x249912, 0x249A13, 0x249B14, 0x24EA00, 0x24EB0B, 0x24EC0C, 0x24ED0D, 0x24EE0E, 0x24EF0F, 0x24F010,
  0x24F111, 0x24F212, 0x24F313, 0x24F414, 0x24F501, 0x24F602, 0x24F703, 0x24F804, 0x24F905, 0x24FA06, 0x24FB07,
  0x24FC08, 0x24FD09, 0x24FE0A, 0x24FF00, 0x277601, 0x277702, 0x277803, 0x277904, 0x277A05, 0x277B06, 0x277C07,
  0x277D08, 0x277E09, 0x277F0A, 0x278001, 0x278102, 0x278203, 0x278304, 0x278405, 0x278506, 0x278607, 0x278708,
  0x278809, 0x27890A, 0x278A01, 0x278B02, 0x278C03, 0x278D04, 0x278E05, 0x278F06, 0x279007, 0x279108, 0x279209,
  0x27930A, 0x2CFD01, 0x300700, 0x302101, 0x302202, 0x302303, 0x302404, 0x302505, 0x302606, 0x302707, 0x302808,
  0x302909, 0x30380A, 0x303914, 0x303A1E, 0x319201, 0x319302, 0x319403, 0x319504, 0x322001, 0x322102, 0x322203,
  0x322304, 0x322405, 0x322506, 0x322607, 0x322708, 0x322809, 0x32290A, 0x32480A, 0x324914, 0x324A1E, 0x324B28,
  0x324C32, 0x324D3C, 0x324E46, 0x324F50, 0x325115, 0x325216, 0x325317, 0x325418, 0x325519, 0x32561A, 0x32571B,
  0x32581C, 0x32591D, 0x325A1E, 0x325B1F, 0x325C20, 0x325D21, 0x325E22, 0x325F23, 0x328001, 0x328102, 0x328203,
  0x328304, 0x328405, 0x328506, 0x328607, 0x328708, 0x328809, 0x32890A, 0x32B124, 0x32B225, 0x32B326, 0x32B427,
  0x32B528, 0x32B629, 0x32B72A, 0x32B82B, 0x32B92C, 0x32BA2D, 0x32BB2E, 0x32BC2F, 0x32BD30, 0x32BE31, 0x32BF32,
  0x340505, 0x348302, 0x382A05, 0x3B4D07, 0x4E0001, 0x4E0307, 0x4E0903, 0x4E5D09, 0x4E8C02, 0x4E9405, 0x4E9604,
  0x4EC00A, 0x4EE803, 0x4F0D05, 0x4F7064, 0x516902, 0x516B08, 0x516D06, 0x53410A, 0x534414, 0x53451E, 0x534C28,
  0x53C103, 0x53C203, 0x53C303, 0x53C403, 0x56DB04, 0x58F101, 0x58F901, 0x5E7A01, 0x5EFE09, 0x5EFF14, 0x5F0C01,
  0x5F0D02, 0x5F0E03, 0x5F1002, 0x62FE0A, 0x634C08, 0x67D207, 0x6F0607, 0x739609, 0x767E64, 0x808604, 0x8CAE02,
  0x8CB302, 0x8D3002, 0x964606, 0x964C64, 0x967806, 0x96F600, 0xA62000, 0xA62101, 0xA62202, 0xA62303, 0xA62404,
  0xA62505, 0xA62606, 0xA62707, 0xA62808, 0xA62909, 0xA6E601, 0xA6E702, 0xA6E803, 0xA6E904, 0xA6EA05, 0xA6EB06,
  0xA6EC07, 0xA6ED08, 0xA6EE09, 0xA6EF00, 0xA83001, 0xA83101, 0xA83203, 0xA83301, 0xA83401, 0xA83503, 0xA8D000,
  0xA8D101, 0xA8D202, 0xA8D303, 0xA8D404, 0xA8D505, 0xA8D606, 0xA8D707, 0xA8D808, 0xA8D909, 0xA90000, 0xA90101,
  0xA90202, 0xA90303, 0xA90404, 0xA90505, 0xA90606, 0xA90707, 0xA90808, 0xA90909, 0xA9D000, 0xA9D101, 0xA9D202,
  0xA9D303, 0xA9D404, 0xA9D505, 0xA9D606, 0xA9D707, 0xA9D808, 0xA9D909, 0xA9F000, 0xA9F101, 0xA9F202, 0xA9F303,
  0xA9F404, 0xA9F505, 0xA9F606, 0xA9F707, 0xA9F808, 0xA9F909, 0xAA5000, 0xAA5101, 0xAA5202, 0xAA5303, 0xAA5404,
  0xAA5505, 0xAA5606, 0xAA5707, 0xAA5808, 0xAA5909, 0xABF000, 0xABF101, 0xABF202, 0xABF303, 0xABF404, 0xABF505,
  0xABF606, 0xABF707, 0xABF808, 0xABF909, 0xF96B03, 0xF9730A, 0xF97802, 0xF9B200, 0xF9D106, 0xF9D306, 0xF9FD0A,
  0xFF1000, 0xFF1101, 0xFF1202, 0xFF1303, 0xFF1404, 0xFF1505, 0xFF1606, 0xFF1707, 0xFF1808, 0xFF1909, 0x1010701,
  0x1010802, 0x1010903, 0x1010A04, 0x1010B05, 0x1010C06, 0x1010D07, 0x1010E08, 0x1010F09, 0x101100A, 0x1011114,
  0x101121E, 0x1011328, 0x1011432, 0x101153C, 0x1011646, 0x1011750, 0x101185A, 0x1011964, 0x1014001, 0x1014101,
  0x1014201, 0x1014305, 0x1014432, 0x1014805, 0x101490A, 0x1014A32, 0x1014B64, 0x1014F05, 0x101500A, 0x1015132,
  0x1015264, 0x101570A, 0x1015801, 0x1015901, 0x1015A01, 0x1015B02, 0x1015C02, 0x1015D02, 0x1015E02, 0x1015F05,
  0x101600A, 0x101610A, 0x101620A, 0x101630A, 0x101640A, 0x101651E, 0x1016632, 0x1016732, 0x1016832, 0x1016932,
  0x1016A64, 0x1017305, 0x1017432, 0x1017501, 0x1017601, 0x1017702, 0x1017803, 0x1018A00, 0x1018B01, 0x102E101,
  0x102E202, 0x102E303, 0x102E404, 0x102E505, 0x102E606, 0x102E707, 0x102E808, 0x102E909, 0x102EA0A, 0x102EB14,
  0x102EC1E, 0x102ED28, 0x102EE32, 0x102EF3C, 0x102F046, 0x102F150, 0x102F25A, 0x102F364, 0x1032001, 0x1032105,
  0x103220A, 0x1032332, 0x103415A, 0x103D101, 0x103D202, 0x103D30A, 0x103D414, 0x103D564, 0x104A000, 0x104A101,
  0x104A202, 0x104A303, 0x104A404, 0x104A505, 0x104A606, 0x104A707, 0x104A808, 0x104A909, 0x1085801, 0x1085902,
  0x1085A03, 0x1085B0A, 0x1085C14, 0x1085D64, 0x1087901, 0x1087A02, 0x1087B03, 0x1087C04, 0x1087D05, 0x1087E0A,
  0x1087F14, 0x108A701, 0x108A802, 0x108A903, 0x108AA04, 0x108AB04, 0x108AC05, 0x108AD0A, 0x108AE14, 0x108AF64,
  0x108FB01, 0x108FC05, 0x108FD0A, 0x108FE14, 0x108FF64, 0x1091601, 0x109170A, 0x1091814, 0x1091964, 0x1091A02,
  0x1091B03, 0x109BC0B, 0x109BD01, 0x109C001, 0x109C102, 0x109C203, 0x109C304, 0x109C405, 0x109C506, 0x109C607,
  0x109C708, 0x109C809, 0x109C90A, 0x109CA14, 0x109CB1E, 0x109CC28, 0x109CD32, 0x109CE3C, 0x109CF46, 0x109D264,
  0x109F601, 0x109F702, 0x109F803, 0x109F904, 0x109FA05, 0x109FB06, 0x109FC07, 0x109FD08, 0x109FE09, 0x109FF0A,
  0x10A4001, 0x10A4102, 0x10A4203, 0x10A4304, 0x10A440A, 0x10A4514, 0x10A4664, 0x10A4801, 0x10A7D01, 0x10A7E32,
  0x10A9D01, 0x10A9E0A, 0x10A9F14, 0x10AEB01, 0x10AEC05, 0x10AED0A, 0x10AEE14, 0x10AEF64, 0x10B5801, 0x10B5902,
  0x10B5A03, 0x10B5B04, 0x10B5C0A, 0x10B5D14, 0x10B5E64, 0x10B7801, 0x10B7902, 0x10B7A03, 0x10B7B04, 0x10B7C0A,
  0x10B7D14, 0x10B7E64, 0x10BA901, 0x10BAA02, 0x10BAB03, 0x10BAC04, 0x10BAD0A, 0x10BAE14, 0x10BAF64, 0x10CFA01,
  0x10CFB05, 0x10CFC0A, 0x10CFD32, 0x10CFE64, 0x10D3000, 0x10D3101, 0x10D3202, 0x10D3303, 0x10D3404, 0x10D3505,
  0x10D3606, 0x10D3707, 0x10D3808, 0x10D3909, 0x10E6001, 0x10E6102, 0x10E6203, 0x10E6304, 0x10E6405, 0x10E6506,
  0x10E6607, 0x10E6708, 0x10E6809, 0x10E690A, 0x10E6A14, 0x10E6B1E, 0x10E6C28, 0x10E6D32, 0x10E6E3C, 0x10E6F46,
  0x10E7050, 0x10E715A, 0x10E7264, 0x10E7B01, 0x10E7C01, 0x10E7D01, 0x10E7E02, 0x10F1D01, 0x10F1E02, 0x10F1F03,
  0x10F2004, 0x10F2105, 0x10F220A, 0x10F2314, 0x10F241E, 0x10F2564, 0x10F2601, 0x10F5101, 0x10F520A, 0x10F5314,
  0x10F5464, 0x10FC501, 0x10FC602, 0x10FC703, 0x10FC804, 0x10FC90A, 0x10FCA14, 0x10FCB64, 0x1105201, 0x1105302,
  0x1105403, 0x1105504, 0x1105605, 0x1105706, 0x1105807, 0x1105908, 0x1105A09, 0x1105B0A, 0x1105C14, 0x1105D1E,
  0x1105E28, 0x1105F32, 0x110603C, 0x1106146, 0x1106250, 0x110635A, 0x1106464, 0x1106600, 0x1106701, 0x1106802,
  0x1106903, 0x1106A04, 0x1106B05, 0x1106C06, 0x1106D07, 0x1106E08, 0x1106F09, 0x110F000, 0x110F101, 0x110F202,
  0x110F303, 0x110F404, 0x110F505, 0x110F606, 0x110F707, 0x110F808, 0x110F909, 0x1113600, 0x1113701, 0x1113802,
  0x1113903, 0x1113A04, 0x1113B05, 0x1113C06, 0x1113D07, 0x1113E08, 0x1113F09, 0x111D000, 0x111D101, 0x111D202,
  0x111D303, 0x111D404, 0x111D505, 0x111D606, 0x111D707, 0x111D808, 0x111D909, 0x111E101, 0x111E202, 0x111E303,
  0x111E404, 0x111E505, 0x111E606, 0x111E707, 0x111E808, 0x111E909, 0x111EA0A, 0x111EB14, 0x111EC1E, 0x111ED28,
  0x111EE32, 0x111EF3C, 0x111F046, 0x111F150, 0x111F25A, 0x111F364, 0x112F000, 0x112F101, 0x112F202, 0x112F303,
  0x112F404, 0x112F505, 0x112F606, 0x112F707, 0x112F808, 0x112F909, 0x1145000, 0x1145101, 0x1145202, 0x1145303,
  0x1145404, 0x1145505, 0x1145606, 0x1145707, 0x1145808, 0x1145909, 0x114D000, 0x114D101, 0x114D202, 0x114D303,
  0x114D404, 0x114D505, 0x114D606, 0x114D707, 0x114D808, 0x114D909, 0x1165000, 0x1165101, 0x1165202, 0x1165303,
  0x1165404, 0x1165505, 0x1165606, 0x1165707, 0x1165808, 0x1165909, 0x116C000, 0x116C101, 0x116C202, 0x116C303,
  0x116C404, 0x116C505, 0x116C606, 0x116C707, 0x116C808, 0x116C909, 0x1173000, 0x1173101, 0x1173202, 0x1173303,
  0x1173404, 0x1173505, 0x1173606, 0x1173707, 0x1173808, 0x1173909, 0x1173A0A, 0x1173B14, 0x118E000, 0x118E101,
  0x118E202, 0x118E303, 0x118E404, 0x118E505, 0x118E606, 0x118E707, 0x118E808, 0x118E909, 0x118EA0A, 0x118EB14,
  0x118EC1E, 0x118ED28, 0x118EE32, 0x118EF3C, 0x118F046, 0x118F150, 0x118F25A, 0x1195000, 0x1195101, 0x1195202,
  0x1195303, 0x1195404, 0x1195505, 0x1195606, 0x1195707, 0x1195808, 0x1195909, 0x11C5000, 0x11C5101, 0x11C5202,
  0x11C5303, 0x11C5404, 0x11C5505, 0x11C5606, 0x11C5707, 0x11C5808, 0x11C5909, 0x11C5A01, 0x11C5B02, 0x11C5C03,
  0x11C5D04, 0x11C5E05, 0x11C5F06, 0x11C6007, 0x11C6108, 0x11C6209, 0x11C630A, 0x11C6414, 0x11C651E, 0x11C6628,
  0x11C6732, 0x11C683C, 0x11C6946, 0x11C6A50, 0x11C6B5A, 0x11C6C64, 0x11D5000, 0x11D5101, 0x11D5202, 0x11D5303,
  0x11D5404, 0x11D5505, 0x11D5606, 0x11D5707, 0x11D5808, 0x11D5909, 0x11DA000, 0x11DA101, 0x11DA202, 0x11DA303,
  0x11DA404, 0x11DA505, 0x11DA606, 0x11DA707, 0x11DA808, 0x11DA909, 0x11FC001, 0x11FC101, 0x11FC201, 0x11FC301,
  0x11FC401, 0x11FC501, 0x11FC603, 0x11FC703, 0x11FC801, 0x11FC901, 0x11FCA01, 0x11FCB01, 0x11FCC01, 0x11FCD03,
  0x11FCE03, 0x11FCF01, 0x11FD001, 0x11FD101, 0x11FD201, 0x11FD303, 0x11FD401, 0x1240002, 0x1240103, 0x1240204,
  0x1240305, 0x1240406, 0x1240507, 0x1240608, 0x1240709, 0x1240803, 0x1240904, 0x1240A05, 0x1240B06, 0x1240C07,
  0x1240D08, 0x1240E09, 0x1240F04, 0x1241005, 0x1241106, 0x1241207, 0x1241308, 0x1241409, 0x1241501, 0x1241602,
  0x1241703, 0x1241804, 0x1241905, 0x1241A06, 0x1241B07, 0x1241C08, 0x1241D09, 0x1241E01, 0x1241F02, 0x1242003,
  0x1242104, 0x1242205, 0x1242302, 0x1242403, 0x1242503, 0x1242604, 0x1242705, 0x1242806, 0x1242907, 0x1242A08,
  0x1242B09, 0x1242C01, 0x1242D02, 0x1242E03, 0x1242F03, 0x1243004, 0x1243105, 0x1243401, 0x1243502, 0x1243603,
  0x1243703, 0x1243804, 0x1243905, 0x1243A03, 0x1243B03, 0x1243C04, 0x1243D04, 0x1243E04, 0x1243F04, 0x1244006,
  0x1244107, 0x1244207, 0x1244307, 0x1244408, 0x1244508, 0x1244609, 0x1244709, 0x1244809, 0x1244909, 0x1244A02,
  0x1244B03, 0x1244C04, 0x1244D05, 0x1244E06, 0x1244F01, 0x1245002, 0x1245103, 0x1245204, 0x1245304, 0x1245405,
  0x1245505, 0x1245602, 0x1245703, 0x1245801, 0x1245902, 0x1245A01, 0x1245B02, 0x1245C05, 0x1245D01, 0x1245E02,
  0x1245F01, 0x1246001, 0x1246101, 0x1246201, 0x1246301, 0x1246401, 0x1246501, 0x1246602, 0x1246728, 0x1246832,
  0x1246904, 0x1246A05, 0x1246B06, 0x1246C07, 0x1246D08, 0x1246E09, 0x16A6000, 0x16A6101, 0x16A6202, 0x16A6303,
  0x16A6404, 0x16A6505, 0x16A6606, 0x16A6707, 0x16A6808, 0x16A6909, 0x16AC000, 0x16AC101, 0x16AC202, 0x16AC303,
  0x16AC404, 0x16AC505, 0x16AC606, 0x16AC707, 0x16AC808, 0x16AC909, 0x16B5000, 0x16B5101, 0x16B5202, 0x16B5303,
  0x16B5404, 0x16B5505, 0x16B5606, 0x16B5707, 0x16B5808, 0x16B5909, 0x16B5B0A, 0x16B5C64, 0x16E8000, 0x16E8101,
  0x16E8202, 0x16E8303, 0x16E8404, 0x16E8505, 0x16E8606, 0x16E8707, 0x16E8808, 0x16E8909, 0x16E8A0A, 0x16E8B0B,
  0x16E8C0C, 0x16E8D0D, 0x16E8E0E, 0x16E8F0F, 0x16E9010, 0x16E9111, 0x16E9212, 0x16E9313, 0x16E9401, 0x16E9502,
  0x16E9603, 0x1D2E000, 0x1D2E101, 0x1D2E202, 0x1D2E303, 0x1D2E404, 0x1D2E505, 0x1D2E606, 0x1D2E707, 0x1D2E808,
  0x1D2E909, 0x1D2EA0A, 0x1D2EB0B, 0x1D2EC0C, 0x1D2ED0D, 0x1D2EE0E, 0x1D2EF0F, 0x1D2F010, 0x1D2F111, 0x1D2F212,
  0x1D2F313, 0x1D36001, 0x1D36102, 0x1D36203, 0x1D36304, 0x1D36405, 0x1D36506, 0x1D36607, 0x1D36708, 0x1D36809,
  0x1D3690A, 0x1D36A14, 0x1D36B1E, 0x1D36C28, 0x1D36D32, 0x1D36E3C, 0x1D36F46, 0x1D37050, 0x1D3715A, 0x1D37201,
  0x1D37302, 0x1D37403, 0x1D37504, 0x1D37605, 0x1D37701, 0x1D37805, 0x1D7CE00, 0x1D7CF01, 0x1D7D002, 0x1D7D103,
  0x1D7D204, 0x1D7D305, 0x1D7D406, 0x1D7D507, 0x1D7D608, 0x1D7D709, 0x1D7D800, 0x1D7D901, 0x1D7DA02, 0x1D7DB03,
  0x1D7DC04, 0x1D7DD05, 0x1D7DE06, 0x1D7DF07, 0x1D7E008, 0x1D7E109, 0x1D7E200, 0x1D7E301, 0x1D7E402, 0x1D7E503,
  0x1D7E604, 0x1D7E705, 0x1D7E806, 0x1D7E907, 0x1D7EA08, 0x1D7EB09, 0x1D7EC00, 0x1D7ED01, 0x1D7EE02, 0x1D7EF03,
  0x1D7F004, 0x1D7F105, 0x1D7F206, 0x1D7F307, 0x1D7F408, 0x1D7F509, 0x1D7F600, 0x1D7F701, 0x1D7F802, 0x1D7F903,
  0x1D7FA04, 0x1D7FB05, 0x1D7FC06, 0x1D7FD07, 0x1D7FE08, 0x1D7FF09, 0x1E14000, 0x1E14101, 0x1E14202, 0x1E14303,
  0x1E14404, 0x1E14505, 0x1E14606, 0x1E14707, 0x1E14808, 0x1E14909, 0x1E2F000, 0x1E2F101, 0x1E2F202, 0x1E2F303,
  0x1E2F404, 0x1E2F505, 0x1E2F606, 0x1E2F707, 0x1E2F808, 0x1E2F909, 0x1E8C701, 0x1E8C802, 0x1E8C903, 0x1E8CA04,
  0x1E8CB05, 0x1E8CC06, 0x1E8CD07, 0x1E8CE08, 0x1E8CF09, 0x1E95000, 0x1E95101, 0x1E95202, 0x1E95303, 0x1E95404,
  0x1E95505, 0x1E95606, 0x1E95707, 0x1E95808, 0x1E95909, 0x1EC7101, 0x1EC7202, 0x1EC7303, 0x1EC7404, 0x1EC7505,
  0x1EC7606, 0x1EC7707, 0x1EC7808, 0x1EC7909, 0x1EC7A0A, 0x1EC7B14, 0x1EC7C1E, 0x1EC7D28, 0x1EC7E32, 0x1EC7F3C,
  0x1EC8046, 0x1EC8150, 0x1EC825A, 0x1EC8364, 0x1ECA301, 0x1ECA402, 0x1ECA503, 0x1ECA604, 0x1ECA705, 0x1ECA806,
  0x1ECA907, 0x1ECAA08, 0x1ECAB09, 0x1ECAD01, 0x1ECAE01, 0x1ECAF03, 0x1ECB101, 0x1ECB202, 0x1ED0101, 0x1ED0202,
  0x1ED0303, 0x1ED0404, 0x1ED0505, 0x1ED0606, 0x1ED0707, 0x1ED0808, 0x1ED0909, 0x1ED0A0A, 0x1ED0B14, 0x1ED0C1E,
  0x1ED0D28, 0x1ED0E32, 0x1ED0F3C, 0x1ED1046, 0x1ED1150, 0x1ED125A, 0x1ED1364, 0x1ED2F02, 0x1ED3003, 0x1ED3104,
  0x1ED3205, 0x1ED3306, 0x1ED3407, 0x1ED3508, 0x1ED3609, 0x1ED370A, 0x1ED3C01, 0x1ED3D01, 0x1F10000, 0x1F10100,
  0x1F10201, 0x1F10302, 0x1F10403, 0x1F10504, 0x1F10605, 0x1F10706, 0x1F10807, 0x1F10908, 0x1F10A09, 0x1F10B00,
  0x1F10C00, 0x1FBF000, 0x1FBF101, 0x1FBF202, 0x1FBF303, 0x1FBF404, 0x1FBF505, 0x1FBF606, 0x1FBF707, 0x1FBF808,
  0x1FBF909, 0x2000107, 0x2006404, 0x200E204, 0x2012105, 0x2092A01, 0x209831E, 0x2098C28, 0x2099C28, 0x20AEA06,
  0x20AFD03, 0x20B1903, 0x2239002, 0x2299803, 0x23B1B03, 0x2626D04, 0x2F89009]

/-- `numeric_data16` (/repo/include/unicode-db/unicode-db.hpp:4734-4878). -/
def numericData16 : List (Nat × Int) := [
  (0xBF2, 1000), (0xD72, 1000), (0xF33, -1), (0x137C, 10000), (0x216E, 500), (0x216F, 1000), (0x217E, 500),
  (0x217F, 1000), (0x2180, 1000), (0x2181, 5000), (0x2182, 10000), (0x4E07, 10000), (0x4EDF, 1000), (0x5343, 1000),
  (0x842C, 10000), (0x9621, 1000), (0x1011A, 200), (0x1011B, 300), (0x1011C, 400), (0x1011D, 500), (0x1011E, 600),
  (0x1011F, 700), (0x10120, 800), (0x10121, 900), (0x10122, 1000), (0x10123, 2000), (0x10124, 3000), (0x10125, 4000),
  (0x10126, 5000), (0x10127, 6000), (0x10128, 7000), (0x10129, 8000), (0x1012A, 9000), (0x1012B, 10000),
  (0x1012C, 20000), (0x1012D, 30000), (0x10145, 500), (0x10146, 5000), (0x1014C, 500), (0x1014D, 1000),
  (0x1014E, 5000), (0x10153, 500), (0x10154, 1000), (0x10155, 10000), (0x1016B, 300), (0x1016C, 500), (0x1016D, 500),
  (0x1016E, 500), (0x1016F, 500), (0x10170, 500), (0x10171, 1000), (0x10172, 5000), (0x102F4, 200), (0x102F5, 300),
  (0x102F6, 400), (0x102F7, 500), (0x102F8, 600), (0x102F9, 700), (0x102FA, 800), (0x102FB, 900), (0x1034A, 900),
  (0x1085E, 1000), (0x1085F, 10000), (0x109D3, 200), (0x109D4, 300), (0x109D5, 400), (0x109D6, 500), (0x109D7, 600),
  (0x109D8, 700), (0x109D9, 800), (0x109DA, 900), (0x109DB, 1000), (0x109DC, 2000), (0x109DD, 3000), (0x109DE, 4000),
  (0x109DF, 5000), (0x109E0, 6000), (0x109E1, 7000), (0x109E2, 8000), (0x109E3, 9000), (0x109E4, 10000),
  (0x109E5, 20000), (0x109E6, 30000), (0x10A47, 1000), (0x10B5F, 1000), (0x10B7F, 1000), (0x10CFF, 1000),
  (0x10E73, 200), (0x10E74, 300), (0x10E75, 400), (0x10E76, 500), (0x10E77, 600), (0x10E78, 700), (0x10E79, 800),
  (0x10E7A, 900), (0x11065, 1000), (0x111F4, 1000), (0x16B5D, 10000), (0x1EC84, 200), (0x1EC85, 300), (0x1EC86, 400),
  (0x1EC87, 500), (0x1EC88, 600), (0x1EC89, 700), (0x1EC8A, 800), (0x1EC8B, 900), (0x1EC8C, 1000), (0x1EC8D, 2000),
  (0x1EC8E, 3000), (0x1EC8F, 4000), (0x1EC90, 5000), (0x1EC91, 6000), (0x1EC92, 7000), (0x1EC93, 8000),
  (0x1EC94, 9000), (0x1EC95, 10000), (0x1EC96, 20000), (0x1EC97, 30000), (0x1ECB3, 10000), (0x1ED14, 200),
  (0x1ED15, 300), (0x1ED16, 400), (0x1ED17, 500), (0x1ED18, 600), (0x1ED19, 700), (0x1ED1A, 800), (0x1ED1B, 900),
  (0x1ED1C, 1000), (0x1ED1D, 2000), (0x1ED1E, 3000), (0x1ED1F, 4000), (0x1ED20, 5000), (0x1ED21, 6000),
  (0x1ED22, 7000), (0x1ED23, 8000), (0x1ED24, 9000), (0x1ED25, 10000), (0x1ED26, 20000), (0x1ED27, 30000),
  (0x1ED38, 400), (0x1ED39, 600), (0x1ED3A, 2000), (0x1ED3B, 10000)]

/-- `numeric_data32` (/repo/include/unicode-db/unicode-db.hpp:4879-4929). -/
def numericData32 : List (Nat × Int) := [
  (0x2187, 50000), (0x2188, 100000), (0x4EBF, 100000000), (0x5104, 100000000), (0x1012E, 40000), (0x1012F, 50000),
  (0x10130, 60000), (0x10131, 70000), (0x10132, 80000), (0x10133, 90000), (0x10147, 50000), (0x10156, 50000),
  (0x109E7, 40000), (0x109E8, 50000), (0x109E9, 60000), (0x109EA, 70000), (0x109EB, 80000), (0x109EC, 90000),
  (0x109ED, 100000), (0x109EE, 200000), (0x109EF, 300000), (0x109F0, 400000), (0x109F1, 500000), (0x109F2, 600000),
  (0x109F3, 700000), (0x109F4, 800000), (0x109F5, 900000), (0x12432, 216000), (0x12433, 432000), (0x16B5E, 1000000),
  (0x16B5F, 100000000), (0x1EC98, 40000), (0x1EC99, 50000), (0x1EC9A, 60000), (0x1EC9B, 70000), (0x1EC9C, 80000),
  (0x1EC9D, 90000), (0x1EC9E, 100000), (0x1EC9F, 200000), (0x1ECA0, 100000), (0x1ECA1, 10000000),
  (0x1ECA2, 20000000), (0x1ECB4, 100000), (0x1ED28, 40000), (0x1ED29, 50000), (0x1ED2A, 60000), (0x1ED2B, 70000),
  (0x1ED2C, 80000), (0x1ED2D, 90000)]

/-- `numeric_data64` (/repo/include/unicode-db/unicode-db.hpp:4930-4934). -/
def numericData64 : List (Nat × Int) := [
  (0x5146, 1000000000000), (0x16B60, 10000000000), (0x16B61, 1000000000000)]

/-- `numeric_data_d` (/repo/include/unicode-db/unicode-db.hpp:4935-5059). -/
def numericDataD : List (Nat × Int) := [
  (0xBC, 4), (0xBD, 2), (0xBE, 4), (0x9F4, 16), (0x9F5, 8), (0x9F6, 16), (0x9F7, 4), (0x9F8, 4), (0xB72, 4),
  (0xB73, 2), (0xB74, 4), (0xB75, 16), (0xB76, 8), (0xB77, 16), (0xD58, 160), (0xD59, 40), (0xD5A, 80), (0xD5B, 20),
  (0xD5C, 10), (0xD5D, 20), (0xD5E, 5), (0xD73, 4), (0xD74, 2), (0xD75, 4), (0xD76, 16), (0xD77, 8), (0xD78, 16),
  (0xF2A, 2), (0xF2B, 2), (0xF2C, 2), (0xF2D, 2), (0xF2E, 2), (0xF2F, 2), (0xF30, 2), (0xF31, 2), (0xF32, 2),
  (0xF33, 2), (0x2150, 7), (0x2151, 9), (0x2152, 10), (0x2153, 3), (0x2154, 3), (0x2155, 5), (0x2156, 5),
  (0x2157, 5), (0x2158, 5), (0x2159, 6), (0x215A, 6), (0x215B, 8), (0x215C, 8), (0x215D, 8), (0x215E, 8),
  (0x2CFD, 2), (0xA830, 4), (0xA831, 2), (0xA832, 4), (0xA833, 16), (0xA834, 8), (0xA835, 16), (0x10140, 4),
  (0x10141, 2), (0x10175, 2), (0x10176, 2), (0x10177, 3), (0x10178, 4), (0x1018B, 4), (0x109BC, 12), (0x109BD, 2),
  (0x109F6, 12), (0x109F7, 12), (0x109F8, 12), (0x109F9, 12), (0x109FA, 12), (0x109FB, 12), (0x109FC, 12),
  (0x109FD, 12), (0x109FE, 12), (0x109FF, 12), (0x10A48, 2), (0x10E7B, 2), (0x10E7C, 4), (0x10E7D, 3), (0x10E7E, 3),
  (0x10F26, 2), (0x11FC0, 320), (0x11FC1, 160), (0x11FC2, 80), (0x11FC3, 64), (0x11FC4, 40), (0x11FC5, 32),
  (0x11FC6, 80), (0x11FC7, 64), (0x11FC8, 20), (0x11FC9, 16), (0x11FCA, 16), (0x11FCB, 10), (0x11FCC, 8),
  (0x11FCD, 20), (0x11FCE, 16), (0x11FCF, 5), (0x11FD0, 4), (0x11FD1, 2), (0x11FD2, 2), (0x11FD3, 4), (0x11FD4, 320),
  (0x1245A, 3), (0x1245B, 3), (0x1245C, 6), (0x1245D, 3), (0x1245E, 3), (0x1245F, 8), (0x12460, 4), (0x12461, 6),
  (0x12462, 4), (0x12463, 4), (0x12464, 2), (0x12465, 3), (0x12466, 3), (0x1ECAD, 4), (0x1ECAE, 2), (0x1ECAF, 4),
  (0x1ED3C, 2), (0x1ED3D, 6), (0x110000, 0)]

/-- `compact_list::value` (/repo/include/unicode-db/unicode-db.hpp:188-202).  `none`: a read outside of the array. -/
def listValue (d : List Nat) (cp dflt : Nat) : Option Nat :=
  match boundLoop (fun v => decide (v >>> 8 < cp)) d d.length 0 d.length with
  | none => none
  | some it =>
    if it = d.length then some dflt
    else (rd d.length d it).map fun v => if v >>> 8 ≠ cp then dflt else v &&& 0xFF

/-- `get_numeric_value` (/repo/include/unicode-db/unicode-db.hpp:7495-7503): `some none` is the result `false`,
`some (some v)` is `true` with `res = v`.  The search reads only the first components. -/
def getNumericValue (cp : Nat) (a : List (Nat × Int)) : Option (Option Int) :=
  match lowerBound (a.map Prod.fst) cp with
  | none => none
  | some it =>
    if it = a.length then some none
    else
      match a[it]? with
      | none => none
      | some e => if e.1 ≠ cp then some none else some (some e.2)

/-- `numeric_value` (/repo/include/unicode-db/unicode-db.hpp:44-58): `numerator()` and `denominator()`
(lines 379-385).  `value()` (lines 375-377) is in Model/UniDouble.lean. -/
structure NumericValue where
  numerator : Int := 0
  denominator : Int := 0
deriving DecidableEq, Repr

/-- `numeric_value::is_valid` (/repo/include/unicode-db/unicode-db.hpp:387-389). -/
def NumericValue.isValid (v : NumericValue) : Bool := v.denominator != 0

/-- The last lines of `cp_numeric_value` (/repo/include/unicode-db/unicode-db.hpp:7518-7520). -/
def withDenominator (cp : Nat) (res : Int) : Option NumericValue :=
  (getNumericValue cp numericDataD).map fun d => ⟨res, d.getD 1⟩

/-- `cp_numeric_value` (/repo/include/unicode-db/unicode-db.hpp:7507-7521).  `none`: a read outside of an array. -/
def cpNumericValue (cp : Nat) : Option NumericValue :=
  match getNumericValue cp numericData64 with
  | none => none
  | some (some res) => withDenominator cp res
  | some none =>
    match getNumericValue cp numericData32 with
    | none => none
    | some (some res) => withDenominator cp res
    | some none =>
      match getNumericValue cp numericData16 with
      | none => none
      | some (some res) => withDenominator cp res
      | some none =>
        match listValue numericData8 cp 255 with
        | none => none
        | some res => if res ≠ 255 then withDenominator cp res else some {}

end Ctre.Ucd

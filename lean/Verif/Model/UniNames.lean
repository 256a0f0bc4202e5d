import Verif.Model.UniText
/-
The name tables of the Unicode database.
Source: /repo/include/unicode-db/unicode-db.hpp:1281-1284, 3205-3657, 3713-4032, 9020-9499
Generated from the source text, number by number.
-/
set_option maxRecDepth 20000
namespace Ctre.Ucd

/-- `blocks_names` (/repo/include/unicode-db/unicode-db.hpp:3205-3657). -/
def blocksNames : List (List Nat × Nat) := [
  (n!"adlam", 290), (n!"aegean_numbers", 167), (n!"ahom", 232), (n!"alchemical", 303),
  (n!"alchemical_symbols", 303), (n!"alphabetic_pf", 155),
  (n!"alphabetic_presentation_forms", 155), (n!"anatolian_hieroglyphs", 254),
  (n!"ancient_greek_music", 277), (n!"ancient_greek_musical_notation", 277),
  (n!"ancient_greek_numbers", 168), (n!"ancient_symbols", 169), (n!"arabic", 13),
  (n!"arabic_ext_a", 22), (n!"arabic_ext_b", 21), (n!"arabic_extended_a", 22),
  (n!"arabic_extended_b", 21), (n!"arabic_math", 293),
  (n!"arabic_mathematical_alphabetic_symbols", 293), (n!"arabic_pf_a", 156),
  (n!"arabic_pf_b", 162), (n!"arabic_presentation_forms_a", 156),
  (n!"arabic_presentation_forms_b", 162), (n!"arabic_sup", 15), (n!"arabic_supplement", 15),
  (n!"armenian", 11), (n!"arrows", 79), (n!"ascii", 1), (n!"avestan", 201), (n!"balinese", 59),
  (n!"bamum", 127), (n!"bamum_sup", 255), (n!"bamum_supplement", 255), (n!"basic_latin", 1),
  (n!"bassa_vah", 258), (n!"batak", 61), (n!"bengali", 24), (n!"bhaiksuki", 241),
  (n!"block_elements", 86), (n!"bopomofo", 111), (n!"bopomofo_ext", 114),
  (n!"bopomofo_extended", 114), (n!"box_drawing", 85), (n!"brahmi", 215), (n!"braille", 92),
  (n!"braille_patterns", 92), (n!"buginese", 56), (n!"buhid", 47), (n!"byzantine_music", 275),
  (n!"byzantine_musical_symbols", 275), (n!"carian", 172), (n!"caucasian_albanian", 184),
  (n!"chakma", 218), (n!"cham", 140), (n!"cherokee", 41), (n!"cherokee_sup", 146),
  (n!"cherokee_supplement", 146), (n!"chess_symbols", 307), (n!"chorasmian", 213), (n!"cjk", 121),
  (n!"cjk_compat", 118), (n!"cjk_compat_forms", 160), (n!"cjk_compat_ideographs", 154),
  (n!"cjk_compat_ideographs_sup", 315), (n!"cjk_compatibility", 118),
  (n!"cjk_compatibility_forms", 160), (n!"cjk_compatibility_ideographs", 154),
  (n!"cjk_compatibility_ideographs_supplement", 315), (n!"cjk_ext_a", 119), (n!"cjk_ext_b", 310),
  (n!"cjk_ext_c", 311), (n!"cjk_ext_d", 312), (n!"cjk_ext_e", 313), (n!"cjk_ext_f", 314),
  (n!"cjk_ext_g", 316), (n!"cjk_radicals_sup", 105), (n!"cjk_radicals_supplement", 105),
  (n!"cjk_strokes", 115), (n!"cjk_symbols", 108), (n!"cjk_symbols_and_punctuation", 108),
  (n!"cjk_unified_ideographs", 121), (n!"cjk_unified_ideographs_extension_a", 119),
  (n!"cjk_unified_ideographs_extension_b", 310), (n!"cjk_unified_ideographs_extension_c", 311),
  (n!"cjk_unified_ideographs_extension_d", 312), (n!"cjk_unified_ideographs_extension_e", 313),
  (n!"cjk_unified_ideographs_extension_f", 314), (n!"cjk_unified_ideographs_extension_g", 316),
  (n!"combining_diacritical_marks", 7), (n!"combining_diacritical_marks_extended", 58),
  (n!"combining_diacritical_marks_for_symbols", 76),
  (n!"combining_diacritical_marks_supplement", 70), (n!"combining_half_marks", 159),
  (n!"common_indic_number_forms", 131), (n!"compat_jamo", 112), (n!"control_pictures", 82),
  (n!"coptic", 99), (n!"coptic_epact_numbers", 173), (n!"counting_rod", 280),
  (n!"counting_rod_numerals", 280), (n!"cuneiform", 248), (n!"cuneiform_numbers", 249),
  (n!"cuneiform_numbers_and_punctuation", 249), (n!"currency_symbols", 75),
  (n!"cypriot_syllabary", 188), (n!"cypro_minoan", 251), (n!"cyrillic", 9),
  (n!"cyrillic_ext_a", 103), (n!"cyrillic_ext_b", 126), (n!"cyrillic_ext_c", 64),
  (n!"cyrillic_extended_a", 103), (n!"cyrillic_extended_b", 126), (n!"cyrillic_extended_c", 64),
  (n!"cyrillic_sup", 10), (n!"cyrillic_supplement", 10), (n!"deseret", 179), (n!"devanagari", 23),
  (n!"devanagari_ext", 134), (n!"devanagari_extended", 134), (n!"diacriticals", 7),
  (n!"diacriticals_ext", 58), (n!"diacriticals_for_symbols", 76), (n!"diacriticals_sup", 70),
  (n!"dingbats", 89), (n!"dives_akuru", 235), (n!"dogra", 233), (n!"domino", 295),
  (n!"domino_tiles", 295), (n!"duployan", 272), (n!"early_dynastic_cuneiform", 250),
  (n!"egyptian_hieroglyph_format_controls", 253), (n!"egyptian_hieroglyphs", 252),
  (n!"elbasan", 183), (n!"elymaic", 214), (n!"emoticons", 300), (n!"enclosed_alphanum", 84),
  (n!"enclosed_alphanum_sup", 297), (n!"enclosed_alphanumeric_supplement", 297),
  (n!"enclosed_alphanumerics", 84), (n!"enclosed_cjk", 117),
  (n!"enclosed_cjk_letters_and_months", 117), (n!"enclosed_ideographic_sup", 298),
  (n!"enclosed_ideographic_supplement", 298), (n!"ethiopic", 39), (n!"ethiopic_ext", 102),
  (n!"ethiopic_ext_a", 144), (n!"ethiopic_ext_b", 288), (n!"ethiopic_extended", 102),
  (n!"ethiopic_extended_a", 144), (n!"ethiopic_extended_b", 288), (n!"ethiopic_sup", 40),
  (n!"ethiopic_supplement", 40), (n!"general_punctuation", 73), (n!"geometric_shapes", 87),
  (n!"geometric_shapes_ext", 304), (n!"geometric_shapes_extended", 304), (n!"georgian", 37),
  (n!"georgian_ext", 65), (n!"georgian_extended", 65), (n!"georgian_sup", 100),
  (n!"georgian_supplement", 100), (n!"glagolitic", 97), (n!"glagolitic_sup", 284),
  (n!"glagolitic_supplement", 284), (n!"gothic", 175), (n!"grantha", 225), (n!"greek", 8),
  (n!"greek_and_coptic", 8), (n!"greek_ext", 72), (n!"greek_extended", 72), (n!"gujarati", 26),
  (n!"gunjala_gondi", 244), (n!"gurmukhi", 25), (n!"half_and_full_forms", 163),
  (n!"half_marks", 159), (n!"halfwidth_and_fullwidth_forms", 163), (n!"hangul", 148),
  (n!"hangul_compatibility_jamo", 112), (n!"hangul_jamo", 38), (n!"hangul_jamo_extended_a", 137),
  (n!"hangul_jamo_extended_b", 149), (n!"hangul_syllables", 148), (n!"hanifi_rohingya", 207),
  (n!"hanunoo", 46), (n!"hatran", 192), (n!"hebrew", 12), (n!"high_private_use_surrogates", 151),
  (n!"high_pu_surrogates", 151), (n!"high_surrogates", 150), (n!"hiragana", 109), (n!"idc", 107),
  (n!"ideographic_description_characters", 107), (n!"ideographic_symbols", 262),
  (n!"ideographic_symbols_and_punctuation", 262), (n!"imperial_aramaic", 189),
  (n!"indic_number_forms", 131), (n!"indic_siyaq_numbers", 291), (n!"inscriptional_pahlavi", 203),
  (n!"inscriptional_parthian", 202), (n!"ipa_ext", 5), (n!"ipa_extensions", 5), (n!"jamo", 38),
  (n!"jamo_ext_a", 137), (n!"jamo_ext_b", 149), (n!"javanese", 138), (n!"kaithi", 216),
  (n!"kana_ext_a", 269), (n!"kana_ext_b", 267), (n!"kana_extended_a", 269),
  (n!"kana_extended_b", 267), (n!"kana_sup", 268), (n!"kana_supplement", 268), (n!"kanbun", 113),
  (n!"kangxi", 106), (n!"kangxi_radicals", 106), (n!"kannada", 30), (n!"katakana", 110),
  (n!"katakana_ext", 116), (n!"katakana_phonetic_extensions", 116), (n!"kayah_li", 135),
  (n!"kharoshthi", 197), (n!"khitan_small_script", 265), (n!"khmer", 49), (n!"khmer_symbols", 55),
  (n!"khojki", 222), (n!"khudawadi", 224), (n!"lao", 34), (n!"latin_1_sup", 2),
  (n!"latin_1_supplement", 2), (n!"latin_ext_a", 3), (n!"latin_ext_additional", 71),
  (n!"latin_ext_b", 4), (n!"latin_ext_c", 98), (n!"latin_ext_d", 129), (n!"latin_ext_e", 145),
  (n!"latin_ext_f", 187), (n!"latin_ext_g", 283), (n!"latin_extended_a", 3),
  (n!"latin_extended_additional", 71), (n!"latin_extended_b", 4), (n!"latin_extended_c", 98),
  (n!"latin_extended_d", 129), (n!"latin_extended_e", 145), (n!"latin_extended_f", 187),
  (n!"latin_extended_g", 283), (n!"lepcha", 62), (n!"letterlike_symbols", 77), (n!"limbu", 52),
  (n!"linear_a", 186), (n!"linear_b_ideograms", 166), (n!"linear_b_syllabary", 165),
  (n!"lisu", 124), (n!"lisu_sup", 246), (n!"lisu_supplement", 246), (n!"low_surrogates", 152),
  (n!"lycian", 171), (n!"lydian", 194), (n!"mahajani", 219), (n!"mahjong", 294),
  (n!"mahjong_tiles", 294), (n!"makasar", 245), (n!"malayalam", 31), (n!"mandaic", 19),
  (n!"manichaean", 200), (n!"marchen", 242), (n!"masaram_gondi", 243), (n!"math_alphanum", 281),
  (n!"math_operators", 80), (n!"mathematical_alphanumeric_symbols", 281),
  (n!"mathematical_operators", 80), (n!"mayan_numerals", 278), (n!"medefaidrin", 260),
  (n!"meetei_mayek", 147), (n!"meetei_mayek_ext", 143), (n!"meetei_mayek_extensions", 143),
  (n!"mende_kikakui", 289), (n!"meroitic_cursive", 196), (n!"meroitic_hieroglyphs", 195),
  (n!"miao", 261), (n!"misc_arrows", 96), (n!"misc_math_symbols_a", 90),
  (n!"misc_math_symbols_b", 94), (n!"misc_pictographs", 299), (n!"misc_symbols", 88),
  (n!"misc_technical", 81), (n!"miscellaneous_mathematical_symbols_a", 90),
  (n!"miscellaneous_mathematical_symbols_b", 94), (n!"miscellaneous_symbols", 88),
  (n!"miscellaneous_symbols_and_arrows", 96), (n!"miscellaneous_symbols_and_pictographs", 299),
  (n!"miscellaneous_technical", 81), (n!"modi", 229), (n!"modifier_letters", 6),
  (n!"modifier_tone_letters", 128), (n!"mongolian", 50), (n!"mongolian_sup", 230),
  (n!"mongolian_supplement", 230), (n!"mro", 256), (n!"multani", 223), (n!"music", 276),
  (n!"musical_symbols", 276), (n!"myanmar", 36), (n!"myanmar_ext_a", 141),
  (n!"myanmar_ext_b", 139), (n!"myanmar_extended_a", 141), (n!"myanmar_extended_b", 139),
  (n!"nabataean", 191), (n!"nandinagari", 236), (n!"nb", 0), (n!"new_tai_lue", 54),
  (n!"newa", 226), (n!"nko", 17), (n!"no_block", 0), (n!"number_forms", 78), (n!"nushu", 271),
  (n!"nyiakeng_puachue_hmong", 285), (n!"ocr", 83), (n!"ogham", 43), (n!"ol_chiki", 63),
  (n!"old_hungarian", 206), (n!"old_italic", 174), (n!"old_north_arabian", 199),
  (n!"old_permic", 176), (n!"old_persian", 178), (n!"old_sogdian", 210),
  (n!"old_south_arabian", 198), (n!"old_turkic", 205), (n!"old_uyghur", 212),
  (n!"optical_character_recognition", 83), (n!"oriya", 27), (n!"ornamental_dingbats", 301),
  (n!"osage", 182), (n!"osmanya", 181), (n!"ottoman_siyaq_numbers", 292), (n!"pahawh_hmong", 259),
  (n!"palmyrene", 190), (n!"pau_cin_hau", 240), (n!"phags_pa", 132), (n!"phaistos", 170),
  (n!"phaistos_disc", 170), (n!"phoenician", 193), (n!"phonetic_ext", 68),
  (n!"phonetic_ext_sup", 69), (n!"phonetic_extensions", 68),
  (n!"phonetic_extensions_supplement", 69), (n!"playing_cards", 296), (n!"private_use_area", 153),
  (n!"psalter_pahlavi", 204), (n!"pua", 153), (n!"punctuation", 73), (n!"rejang", 136),
  (n!"rumi", 208), (n!"rumi_numeral_symbols", 208), (n!"runic", 44), (n!"samaritan", 18),
  (n!"saurashtra", 133), (n!"sharada", 220), (n!"shavian", 180),
  (n!"shorthand_format_controls", 273), (n!"siddham", 228), (n!"sinhala", 32),
  (n!"sinhala_archaic_numbers", 221), (n!"small_form_variants", 161), (n!"small_forms", 161),
  (n!"small_kana_ext", 270), (n!"small_kana_extension", 270), (n!"sogdian", 211),
  (n!"sora_sompeng", 217), (n!"soyombo", 238), (n!"spacing_modifier_letters", 6),
  (n!"specials", 164), (n!"sundanese", 60), (n!"sundanese_sup", 66),
  (n!"sundanese_supplement", 66), (n!"sup_arrows_a", 91), (n!"sup_arrows_b", 93),
  (n!"sup_arrows_c", 305), (n!"sup_math_operators", 95), (n!"sup_pua_a", 319),
  (n!"sup_pua_b", 320), (n!"sup_punctuation", 104), (n!"sup_symbols_and_pictographs", 306),
  (n!"super_and_sub", 74), (n!"superscripts_and_subscripts", 74), (n!"supplemental_arrows_a", 91),
  (n!"supplemental_arrows_b", 93), (n!"supplemental_arrows_c", 305),
  (n!"supplemental_mathematical_operators", 95), (n!"supplemental_punctuation", 104),
  (n!"supplemental_symbols_and_pictographs", 306), (n!"supplementary_private_use_area_a", 319),
  (n!"supplementary_private_use_area_b", 320), (n!"sutton_signwriting", 282),
  (n!"syloti_nagri", 130), (n!"symbols_and_pictographs_ext_a", 308),
  (n!"symbols_and_pictographs_extended_a", 308), (n!"symbols_for_legacy_computing", 309),
  (n!"syriac", 14), (n!"syriac_sup", 20), (n!"syriac_supplement", 20), (n!"tagalog", 45),
  (n!"tagbanwa", 48), (n!"tags", 317), (n!"tai_le", 53), (n!"tai_tham", 57), (n!"tai_viet", 142),
  (n!"tai_xuan_jing", 279), (n!"tai_xuan_jing_symbols", 279), (n!"takri", 231), (n!"tamil", 28),
  (n!"tamil_sup", 247), (n!"tamil_supplement", 247), (n!"tangsa", 257), (n!"tangut", 263),
  (n!"tangut_components", 264), (n!"tangut_sup", 266), (n!"tangut_supplement", 266),
  (n!"telugu", 29), (n!"thaana", 16), (n!"thai", 33), (n!"tibetan", 35), (n!"tifinagh", 101),
  (n!"tirhuta", 227), (n!"toto", 286), (n!"transport_and_map", 302),
  (n!"transport_and_map_symbols", 302), (n!"ucas", 42), (n!"ucas_ext", 51), (n!"ucas_ext_a", 239),
  (n!"ugaritic", 177), (n!"unified_canadian_aboriginal_syllabics", 42),
  (n!"unified_canadian_aboriginal_syllabics_extended", 51),
  (n!"unified_canadian_aboriginal_syllabics_extended_a", 239), (n!"vai", 125),
  (n!"variation_selectors", 157), (n!"variation_selectors_supplement", 318), (n!"vedic_ext", 67),
  (n!"vedic_extensions", 67), (n!"vertical_forms", 158), (n!"vithkuqi", 185), (n!"vs", 157),
  (n!"vs_sup", 318), (n!"wancho", 287), (n!"warang_citi", 234), (n!"yezidi", 209),
  (n!"yi_radicals", 123), (n!"yi_syllables", 122), (n!"yijing", 120),
  (n!"yijing_hexagram_symbols", 120), (n!"zanabazar_square", 237), (n!"znamenny_music", 274),
  (n!"znamenny_musical_notation", 274)]

/-- `scripts_names` (/repo/include/unicode-db/unicode-db.hpp:3713-4032). -/
def scriptsNames : List (List Nat × Nat) := [
  (n!"adlam", 0), (n!"adlm", 0), (n!"aghb", 1), (n!"ahom", 2), (n!"anatolian_hieroglyphs", 52),
  (n!"arab", 3), (n!"arabic", 3), (n!"armenian", 5), (n!"armi", 4), (n!"armn", 5),
  (n!"avestan", 6), (n!"avst", 6), (n!"bali", 7), (n!"balinese", 7), (n!"bamu", 8), (n!"bamum", 8),
  (n!"bass", 9), (n!"bassa_vah", 9), (n!"batak", 10), (n!"batk", 10), (n!"beng", 11),
  (n!"bengali", 11), (n!"bhaiksuki", 12), (n!"bhks", 12), (n!"bopo", 13), (n!"bopomofo", 13),
  (n!"brah", 14), (n!"brahmi", 14), (n!"brai", 15), (n!"braille", 15), (n!"bugi", 16),
  (n!"buginese", 16), (n!"buhd", 17), (n!"buhid", 17), (n!"cakm", 18),
  (n!"canadian_aboriginal", 19), (n!"cans", 19), (n!"cari", 20), (n!"carian", 20),
  (n!"caucasian_albanian", 1), (n!"chakma", 18), (n!"cham", 21), (n!"cher", 22),
  (n!"cherokee", 22), (n!"chorasmian", 23), (n!"chrs", 23), (n!"common", 161), (n!"copt", 24),
  (n!"coptic", 24), (n!"cpmn", 25), (n!"cprt", 26), (n!"cuneiform", 156), (n!"cypriot", 26),
  (n!"cypro_minoan", 25), (n!"cyrillic", 27), (n!"cyrl", 27), (n!"deseret", 31), (n!"deva", 28),
  (n!"devanagari", 28), (n!"diak", 29), (n!"dives_akuru", 29), (n!"dogr", 30), (n!"dogra", 30),
  (n!"dsrt", 31), (n!"dupl", 32), (n!"duployan", 32), (n!"egyp", 33),
  (n!"egyptian_hieroglyphs", 33), (n!"elba", 34), (n!"elbasan", 34), (n!"elym", 35),
  (n!"elymaic", 35), (n!"ethi", 36), (n!"ethiopic", 36), (n!"geor", 37), (n!"georgian", 37),
  (n!"glag", 38), (n!"glagolitic", 38), (n!"gong", 39), (n!"gonm", 40), (n!"goth", 41),
  (n!"gothic", 41), (n!"gran", 42), (n!"grantha", 42), (n!"greek", 43), (n!"grek", 43),
  (n!"gujarati", 44), (n!"gujr", 44), (n!"gunjala_gondi", 39), (n!"gurmukhi", 45), (n!"guru", 45),
  (n!"han", 47), (n!"hang", 46), (n!"hangul", 46), (n!"hani", 47), (n!"hanifi_rohingya", 116),
  (n!"hano", 48), (n!"hanunoo", 48), (n!"hatr", 49), (n!"hatran", 49), (n!"hebr", 50),
  (n!"hebrew", 50), (n!"hira", 51), (n!"hiragana", 51), (n!"hluw", 52), (n!"hmng", 53),
  (n!"hmnp", 54), (n!"hrkt", 55), (n!"hung", 56), (n!"imperial_aramaic", 4), (n!"inherited", 160),
  (n!"inscriptional_pahlavi", 110), (n!"inscriptional_parthian", 114), (n!"ital", 57),
  (n!"java", 58), (n!"javanese", 58), (n!"kaithi", 66), (n!"kali", 59), (n!"kana", 60),
  (n!"kannada", 65), (n!"katakana", 60), (n!"katakana_or_hiragana", 55), (n!"kayah_li", 59),
  (n!"khar", 61), (n!"kharoshthi", 61), (n!"khitan_small_script", 64), (n!"khmer", 62),
  (n!"khmr", 62), (n!"khoj", 63), (n!"khojki", 63), (n!"khudawadi", 125), (n!"kits", 64),
  (n!"knda", 65), (n!"kthi", 66), (n!"lana", 67), (n!"lao", 68), (n!"laoo", 68), (n!"latin", 69),
  (n!"latn", 69), (n!"lepc", 70), (n!"lepcha", 70), (n!"limb", 71), (n!"limbu", 71),
  (n!"lina", 72), (n!"linb", 73), (n!"linear_a", 72), (n!"linear_b", 73), (n!"lisu", 74),
  (n!"lyci", 75), (n!"lycian", 75), (n!"lydi", 76), (n!"lydian", 76), (n!"mahajani", 77),
  (n!"mahj", 77), (n!"maka", 78), (n!"makasar", 78), (n!"malayalam", 86), (n!"mand", 79),
  (n!"mandaic", 79), (n!"mani", 80), (n!"manichaean", 80), (n!"marc", 81), (n!"marchen", 81),
  (n!"masaram_gondi", 40), (n!"medefaidrin", 82), (n!"medf", 82), (n!"meetei_mayek", 90),
  (n!"mend", 83), (n!"mende_kikakui", 83), (n!"merc", 84), (n!"mero", 85),
  (n!"meroitic_cursive", 84), (n!"meroitic_hieroglyphs", 85), (n!"miao", 113), (n!"mlym", 86),
  (n!"modi", 87), (n!"mong", 88), (n!"mongolian", 88), (n!"mro", 89), (n!"mroo", 89),
  (n!"mtei", 90), (n!"mult", 91), (n!"multani", 91), (n!"myanmar", 92), (n!"mymr", 92),
  (n!"nabataean", 95), (n!"nand", 93), (n!"nandinagari", 93), (n!"narb", 94), (n!"nbat", 95),
  (n!"new_tai_lue", 137), (n!"newa", 96), (n!"nko", 97), (n!"nkoo", 97), (n!"nshu", 98),
  (n!"nushu", 98), (n!"nyiakeng_puachue_hmong", 54), (n!"ogam", 99), (n!"ogham", 99),
  (n!"ol_chiki", 100), (n!"olck", 100), (n!"old_hungarian", 56), (n!"old_italic", 57),
  (n!"old_north_arabian", 94), (n!"old_permic", 108), (n!"old_persian", 155),
  (n!"old_sogdian", 128), (n!"old_south_arabian", 119), (n!"old_turkic", 101),
  (n!"old_uyghur", 105), (n!"oriya", 102), (n!"orkh", 101), (n!"orya", 102), (n!"osage", 103),
  (n!"osge", 103), (n!"osma", 104), (n!"osmanya", 104), (n!"ougr", 105), (n!"pahawh_hmong", 53),
  (n!"palm", 106), (n!"palmyrene", 106), (n!"pau_cin_hau", 107), (n!"pauc", 107), (n!"perm", 108),
  (n!"phag", 109), (n!"phags_pa", 109), (n!"phli", 110), (n!"phlp", 111), (n!"phnx", 112),
  (n!"phoenician", 112), (n!"plrd", 113), (n!"prti", 114), (n!"psalter_pahlavi", 111),
  (n!"rejang", 115), (n!"rjng", 115), (n!"rohg", 116), (n!"runic", 117), (n!"runr", 117),
  (n!"samaritan", 118), (n!"samr", 118), (n!"sarb", 119), (n!"saur", 120), (n!"saurashtra", 120),
  (n!"sgnw", 121), (n!"sharada", 123), (n!"shavian", 122), (n!"shaw", 122), (n!"shrd", 123),
  (n!"sidd", 124), (n!"siddham", 124), (n!"signwriting", 121), (n!"sind", 125), (n!"sinh", 126),
  (n!"sinhala", 126), (n!"sogd", 127), (n!"sogdian", 127), (n!"sogo", 128), (n!"sora", 129),
  (n!"sora_sompeng", 129), (n!"soyo", 130), (n!"soyombo", 130), (n!"sund", 131),
  (n!"sundanese", 131), (n!"sylo", 132), (n!"syloti_nagri", 132), (n!"syrc", 133),
  (n!"syriac", 133), (n!"tagalog", 143), (n!"tagb", 134), (n!"tagbanwa", 134), (n!"tai_le", 136),
  (n!"tai_tham", 67), (n!"tai_viet", 140), (n!"takr", 135), (n!"takri", 135), (n!"tale", 136),
  (n!"talu", 137), (n!"tamil", 138), (n!"taml", 138), (n!"tang", 139), (n!"tangsa", 148),
  (n!"tangut", 139), (n!"tavt", 140), (n!"telu", 141), (n!"telugu", 141), (n!"tfng", 142),
  (n!"tglg", 143), (n!"thaa", 144), (n!"thaana", 144), (n!"thai", 145), (n!"tibetan", 146),
  (n!"tibt", 146), (n!"tifinagh", 142), (n!"tirh", 147), (n!"tirhuta", 147), (n!"tnsa", 148),
  (n!"toto", 149), (n!"ugar", 150), (n!"ugaritic", 150), (n!"unknown", 162), (n!"vai", 151),
  (n!"vaii", 151), (n!"vith", 152), (n!"vithkuqi", 152), (n!"wancho", 154), (n!"wara", 153),
  (n!"warang_citi", 153), (n!"wcho", 154), (n!"xpeo", 155), (n!"xsux", 156), (n!"yezi", 157),
  (n!"yezidi", 157), (n!"yi", 158), (n!"yiii", 158), (n!"zanabazar_square", 159), (n!"zanb", 159),
  (n!"zinh", 160), (n!"zyyy", 161), (n!"zzzz", 162)]

/-- `binary_prop_names` (/repo/include/unicode-db/unicode-db.hpp:9020-9499). -/
def binaryPropNames : List (List Nat × Nat) := [
  (n!"adlam", 86), (n!"adlm", 86), (n!"aghb", 87), (n!"ahex", 0), (n!"ahom", 88), (n!"alpha", 1),
  (n!"alphabetic", 1), (n!"anatolian_hieroglyphs", 138), (n!"any", 45), (n!"arab", 89),
  (n!"arabic", 89), (n!"armenian", 91), (n!"armi", 90), (n!"armn", 91), (n!"ascii", 46),
  (n!"ascii_hex_digit", 0), (n!"assigned", 47), (n!"avestan", 92), (n!"avst", 92), (n!"bali", 93),
  (n!"balinese", 93), (n!"bamu", 94), (n!"bamum", 94), (n!"bass", 95), (n!"bassa_vah", 95),
  (n!"batak", 96), (n!"batk", 96), (n!"beng", 97), (n!"bengali", 97), (n!"bhaiksuki", 98),
  (n!"bhks", 98), (n!"bidi_c", 2), (n!"bidi_control", 2), (n!"bidi_m", 3), (n!"bidi_mirrored", 3),
  (n!"bopo", 99), (n!"bopomofo", 99), (n!"brah", 100), (n!"brahmi", 100), (n!"brai", 101),
  (n!"braille", 101), (n!"bugi", 102), (n!"buginese", 102), (n!"buhd", 103), (n!"buhid", 103),
  (n!"c", 48), (n!"cakm", 104), (n!"canadian_aboriginal", 105), (n!"cans", 105), (n!"cari", 106),
  (n!"carian", 106), (n!"case_ignorable", 5), (n!"cased", 4), (n!"cased_letter", 55),
  (n!"caucasian_albanian", 87), (n!"cc", 49), (n!"cf", 50), (n!"chakma", 104), (n!"cham", 107),
  (n!"cher", 108), (n!"cherokee", 108), (n!"chorasmian", 109), (n!"chrs", 109), (n!"ci", 5),
  (n!"close_punctuation", 72), (n!"cn", 51), (n!"co", 52), (n!"common", 247),
  (n!"connector_punctuation", 70), (n!"control", 49), (n!"copt", 110), (n!"coptic", 110),
  (n!"cpmn", 111), (n!"cprt", 112), (n!"cs", 53), (n!"cuneiform", 242), (n!"currency_symbol", 78),
  (n!"cypriot", 112), (n!"cypro_minoan", 111), (n!"cyrillic", 113), (n!"cyrl", 113), (n!"dash", 6),
  (n!"dash_punctuation", 71), (n!"decimal_number", 66), (n!"default_ignorable_code_point", 8),
  (n!"dep", 7), (n!"deprecated", 7), (n!"deseret", 117), (n!"deva", 114), (n!"devanagari", 114),
  (n!"di", 8), (n!"dia", 9), (n!"diacritic", 9), (n!"diak", 115), (n!"dives_akuru", 115),
  (n!"dogr", 116), (n!"dogra", 116), (n!"dsrt", 117), (n!"dupl", 118), (n!"duployan", 118),
  (n!"egyp", 119), (n!"egyptian_hieroglyphs", 119), (n!"elba", 120), (n!"elbasan", 120),
  (n!"elym", 121), (n!"elymaic", 121), (n!"emoji", 10), (n!"emoji_component", 11),
  (n!"emoji_modifier", 12), (n!"emoji_modifier_base", 13), (n!"emoji_presentation", 14),
  (n!"enclosing_mark", 63), (n!"ethi", 122), (n!"ethiopic", 122), (n!"ext", 15),
  (n!"extended_pictographic", 16), (n!"extender", 15), (n!"final_punctuation", 73),
  (n!"format", 50), (n!"geor", 123), (n!"georgian", 123), (n!"glag", 124), (n!"glagolitic", 124),
  (n!"gong", 125), (n!"gonm", 126), (n!"goth", 127), (n!"gothic", 127), (n!"gr_base", 17),
  (n!"gr_ext", 18), (n!"gran", 128), (n!"grantha", 128), (n!"grapheme_base", 17),
  (n!"grapheme_extend", 18), (n!"greek", 129), (n!"grek", 129), (n!"gujarati", 130),
  (n!"gujr", 130), (n!"gunjala_gondi", 125), (n!"gurmukhi", 131), (n!"guru", 131), (n!"han", 133),
  (n!"hang", 132), (n!"hangul", 132), (n!"hani", 133), (n!"hanifi_rohingya", 202), (n!"hano", 134),
  (n!"hanunoo", 134), (n!"hatr", 135), (n!"hatran", 135), (n!"hebr", 136), (n!"hebrew", 136),
  (n!"hex", 19), (n!"hex_digit", 19), (n!"hira", 137), (n!"hiragana", 137), (n!"hluw", 138),
  (n!"hmng", 139), (n!"hmnp", 140), (n!"hrkt", 141), (n!"hung", 142), (n!"id_continue", 20),
  (n!"id_start", 22), (n!"idc", 20), (n!"ideo", 21), (n!"ideographic", 21), (n!"ids", 22),
  (n!"ids_binary_operator", 23), (n!"ids_trinary_operator", 24), (n!"idsb", 23), (n!"idst", 24),
  (n!"imperial_aramaic", 90), (n!"inherited", 246), (n!"initial_punctuation", 74),
  (n!"inscriptional_pahlavi", 196), (n!"inscriptional_parthian", 200), (n!"ital", 143),
  (n!"java", 144), (n!"javanese", 144), (n!"join_c", 25), (n!"join_control", 25),
  (n!"kaithi", 152), (n!"kali", 145), (n!"kana", 146), (n!"kannada", 151), (n!"katakana", 146),
  (n!"katakana_or_hiragana", 141), (n!"kayah_li", 145), (n!"khar", 147), (n!"kharoshthi", 147),
  (n!"khitan_small_script", 150), (n!"khmer", 148), (n!"khmr", 148), (n!"khoj", 149),
  (n!"khojki", 149), (n!"khudawadi", 211), (n!"kits", 150), (n!"knda", 151), (n!"kthi", 152),
  (n!"l", 54), (n!"lana", 153), (n!"lao", 154), (n!"laoo", 154), (n!"latin", 155), (n!"latn", 155),
  (n!"lc", 55), (n!"lepc", 156), (n!"lepcha", 156), (n!"letter", 54), (n!"letter_number", 67),
  (n!"limb", 157), (n!"limbu", 157), (n!"lina", 158), (n!"linb", 159), (n!"line_separator", 83),
  (n!"linear_a", 158), (n!"linear_b", 159), (n!"lisu", 160), (n!"ll", 56), (n!"lm", 57),
  (n!"lo", 58), (n!"loe", 26), (n!"logical_order_exception", 26), (n!"lower", 27),
  (n!"lowercase", 27), (n!"lowercase_letter", 56), (n!"lt", 59), (n!"lu", 60), (n!"lyci", 161),
  (n!"lycian", 161), (n!"lydi", 162), (n!"lydian", 162), (n!"m", 61), (n!"mahajani", 163),
  (n!"mahj", 163), (n!"maka", 164), (n!"makasar", 164), (n!"malayalam", 172), (n!"mand", 165),
  (n!"mandaic", 165), (n!"mani", 166), (n!"manichaean", 166), (n!"marc", 167), (n!"marchen", 167),
  (n!"mark", 61), (n!"masaram_gondi", 126), (n!"math", 28), (n!"math_symbol", 80), (n!"mc", 62),
  (n!"me", 63), (n!"medefaidrin", 168), (n!"medf", 168), (n!"meetei_mayek", 176), (n!"mend", 169),
  (n!"mende_kikakui", 169), (n!"merc", 170), (n!"mero", 171), (n!"meroitic_cursive", 170),
  (n!"meroitic_hieroglyphs", 171), (n!"miao", 199), (n!"mlym", 172), (n!"mn", 64), (n!"modi", 173),
  (n!"modifier_letter", 57), (n!"modifier_symbol", 79), (n!"mong", 174), (n!"mongolian", 174),
  (n!"mro", 175), (n!"mroo", 175), (n!"mtei", 176), (n!"mult", 177), (n!"multani", 177),
  (n!"myanmar", 178), (n!"mymr", 178), (n!"n", 65), (n!"nabataean", 181), (n!"nand", 179),
  (n!"nandinagari", 179), (n!"narb", 180), (n!"nbat", 181), (n!"nchar", 29), (n!"nd", 66),
  (n!"new_tai_lue", 223), (n!"newa", 182), (n!"nko", 183), (n!"nkoo", 183), (n!"nl", 67),
  (n!"no", 68), (n!"noncharacter_code_point", 29), (n!"nonspacing_mark", 64), (n!"nshu", 184),
  (n!"number", 65), (n!"nushu", 184), (n!"nyiakeng_puachue_hmong", 140), (n!"ogam", 185),
  (n!"ogham", 185), (n!"ol_chiki", 186), (n!"olck", 186), (n!"old_hungarian", 142),
  (n!"old_italic", 143), (n!"old_north_arabian", 180), (n!"old_permic", 194),
  (n!"old_persian", 241), (n!"old_sogdian", 214), (n!"old_south_arabian", 205),
  (n!"old_turkic", 187), (n!"old_uyghur", 191), (n!"open_punctuation", 76), (n!"oriya", 188),
  (n!"orkh", 187), (n!"orya", 188), (n!"osage", 189), (n!"osge", 189), (n!"osma", 190),
  (n!"osmanya", 190), (n!"other", 48), (n!"other_letter", 58), (n!"other_number", 68),
  (n!"other_punctuation", 75), (n!"other_symbol", 81), (n!"ougr", 191), (n!"p", 69),
  (n!"pahawh_hmong", 139), (n!"palm", 192), (n!"palmyrene", 192), (n!"paragraph_separator", 84),
  (n!"pat_syn", 30), (n!"pat_ws", 31), (n!"pattern_syntax", 30), (n!"pattern_white_space", 31),
  (n!"pau_cin_hau", 193), (n!"pauc", 193), (n!"pc", 70), (n!"pcm", 32), (n!"pd", 71), (n!"pe", 72),
  (n!"perm", 194), (n!"pf", 73), (n!"phag", 195), (n!"phags_pa", 195), (n!"phli", 196),
  (n!"phlp", 197), (n!"phnx", 198), (n!"phoenician", 198), (n!"pi", 74), (n!"plrd", 199),
  (n!"po", 75), (n!"prepended_concatenation_mark", 32), (n!"private_use", 52), (n!"prti", 200),
  (n!"ps", 76), (n!"psalter_pahlavi", 197), (n!"punctuation", 69), (n!"qmark", 33),
  (n!"quotation_mark", 33), (n!"radical", 34), (n!"regional_indicator", 35), (n!"rejang", 201),
  (n!"ri", 35), (n!"rjng", 201), (n!"rohg", 202), (n!"runic", 203), (n!"runr", 203), (n!"s", 77),
  (n!"samaritan", 204), (n!"samr", 204), (n!"sarb", 205), (n!"saur", 206), (n!"saurashtra", 206),
  (n!"sc", 78), (n!"sd", 36), (n!"sentence_terminal", 37), (n!"separator", 82), (n!"sgnw", 207),
  (n!"sharada", 209), (n!"shavian", 208), (n!"shaw", 208), (n!"shrd", 209), (n!"sidd", 210),
  (n!"siddham", 210), (n!"signwriting", 207), (n!"sind", 211), (n!"sinh", 212), (n!"sinhala", 212),
  (n!"sk", 79), (n!"sm", 80), (n!"so", 81), (n!"soft_dotted", 36), (n!"sogd", 213),
  (n!"sogdian", 213), (n!"sogo", 214), (n!"sora", 215), (n!"sora_sompeng", 215), (n!"soyo", 216),
  (n!"soyombo", 216), (n!"space", 42), (n!"space_separator", 85), (n!"spacing_mark", 62),
  (n!"sterm", 37), (n!"sund", 217), (n!"sundanese", 217), (n!"surrogate", 53), (n!"sylo", 218),
  (n!"syloti_nagri", 218), (n!"symbol", 77), (n!"syrc", 219), (n!"syriac", 219),
  (n!"tagalog", 229), (n!"tagb", 220), (n!"tagbanwa", 220), (n!"tai_le", 222), (n!"tai_tham", 153),
  (n!"tai_viet", 226), (n!"takr", 221), (n!"takri", 221), (n!"tale", 222), (n!"talu", 223),
  (n!"tamil", 224), (n!"taml", 224), (n!"tang", 225), (n!"tangsa", 234), (n!"tangut", 225),
  (n!"tavt", 226), (n!"telu", 227), (n!"telugu", 227), (n!"term", 38),
  (n!"terminal_punctuation", 38), (n!"tfng", 228), (n!"tglg", 229), (n!"thaa", 230),
  (n!"thaana", 230), (n!"thai", 231), (n!"tibetan", 232), (n!"tibt", 232), (n!"tifinagh", 228),
  (n!"tirh", 233), (n!"tirhuta", 233), (n!"titlecase_letter", 59), (n!"tnsa", 234),
  (n!"toto", 235), (n!"ugar", 236), (n!"ugaritic", 236), (n!"uideo", 39), (n!"unassigned", 51),
  (n!"unified_ideograph", 39), (n!"unknown", 248), (n!"upper", 40), (n!"uppercase", 40),
  (n!"uppercase_letter", 60), (n!"vai", 237), (n!"vaii", 237), (n!"variation_selector", 41),
  (n!"vith", 238), (n!"vithkuqi", 238), (n!"vs", 41), (n!"wancho", 240), (n!"wara", 239),
  (n!"warang_citi", 239), (n!"wcho", 240), (n!"white_space", 42), (n!"wspace", 42),
  (n!"xid_continue", 43), (n!"xid_start", 44), (n!"xidc", 43), (n!"xids", 44), (n!"xpeo", 241),
  (n!"xsux", 242), (n!"yezi", 243), (n!"yezidi", 243), (n!"yi", 244), (n!"yiii", 244), (n!"z", 82),
  (n!"zanabazar_square", 245), (n!"zanb", 245), (n!"zinh", 246), (n!"zl", 83), (n!"zp", 84),
  (n!"zs", 85), (n!"zyyy", 247), (n!"zzzz", 248)]

/-- `age_strings` (/repo/include/unicode-db/unicode-db.hpp:1281-1284), with the index of every string. -/
def ageStrings : List (List Nat × Nat) := [
  (n!"unassigned", 0), (n!"1.1", 1), (n!"2.0", 2), (n!"2.1", 3), (n!"3.0", 4), (n!"3.1", 5),
  (n!"3.2", 6), (n!"4.0", 7), (n!"4.1", 8), (n!"5.0", 9), (n!"5.1", 10), (n!"5.2", 11),
  (n!"6.0", 12), (n!"6.1", 13), (n!"6.2", 14), (n!"6.3", 15), (n!"7.0", 16), (n!"8.0", 17),
  (n!"9.0", 18), (n!"10.0", 19), (n!"11.0", 20), (n!"12.0", 21), (n!"12.1", 22), (n!"13.0", 23),
  (n!"14.0", 24)]

end Ctre.Ucd

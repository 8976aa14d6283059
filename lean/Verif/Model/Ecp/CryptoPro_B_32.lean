import Verif.Model.FiatField

/-!
# The functions, constants and table of `/repo/ecp_id_GostR3410_2001_CryptoPro_B_ParamSet.c`

32 bit version of the file (`__SIZEOF_INT128__` is not defined).  Generated by `tools/mkfiat.py`, statement by statement;
see `Verif/Model/Fiat.lean` for the meaning.  All line numbers refer to this file.
-/

namespace Gost.Ecp_CryptoPro_B_32

set_option maxRecDepth 100000

/-- `fiat_id_GostR3410_2001_CryptoPro_B_ParamSet_mul`, lines 4622-5854. -/
def mul : CProg := ⟨[
  .set (.a 1), .set (.a 2), .set (.a 3), .set (.a 4), .set (.a 5), .set (.a 6), .set (.a 7), .set (.a 0), .mulx 32 (.x 8) (.b 7),
  .mulx 32 (.x 8) (.b 6), .mulx 32 (.x 8) (.b 5), .mulx 32 (.x 8) (.b 4), .mulx 32 (.x 8) (.b 3), .mulx 32 (.x 8) (.b 2),
  .mulx 32 (.x 8) (.b 1), .mulx 32 (.x 8) (.b 0), .adc 64 32 (.c 0) (.x 24) (.x 21), .adc 64 32 (.x 26) (.x 22) (.x 19),
  .adc 64 32 (.x 28) (.x 20) (.x 17), .adc 64 32 (.x 30) (.x 18) (.x 15), .adc 64 32 (.x 32) (.x 16) (.x 13),
  .adc 64 32 (.x 34) (.x 14) (.x 11), .adc 64 32 (.x 36) (.x 12) (.x 9), .set (.add 32 (.x 38) (.x 10)), .mulx 32 (.x 23) (.c 0xa3347857),
  .mulx 32 (.x 40) (.c 0x80000000), .mulx 32 (.x 40) (.c 0xc99), .adc 64 32 (.c 0) (.x 23) (.x 44), .adc 64 32 (.x 47) (.x 25) (.x 45),
  .adc 64 32 (.x 49) (.x 27) (.c 0), .adc 64 32 (.x 51) (.x 29) (.c 0), .adc 64 32 (.x 53) (.x 31) (.c 0),
  .adc 64 32 (.x 55) (.x 33) (.c 0), .adc 64 32 (.x 57) (.x 35) (.c 0), .adc 64 32 (.x 59) (.x 37) (.x 42),
  .adc 64 32 (.x 61) (.x 39) (.x 43), .mulx 32 (.x 1) (.b 7), .mulx 32 (.x 1) (.b 6), .mulx 32 (.x 1) (.b 5), .mulx 32 (.x 1) (.b 4),
  .mulx 32 (.x 1) (.b 3), .mulx 32 (.x 1) (.b 2), .mulx 32 (.x 1) (.b 1), .mulx 32 (.x 1) (.b 0), .adc 64 32 (.c 0) (.x 79) (.x 76),
  .adc 64 32 (.x 81) (.x 77) (.x 74), .adc 64 32 (.x 83) (.x 75) (.x 72), .adc 64 32 (.x 85) (.x 73) (.x 70),
  .adc 64 32 (.x 87) (.x 71) (.x 68), .adc 64 32 (.x 89) (.x 69) (.x 66), .adc 64 32 (.x 91) (.x 67) (.x 64),
  .set (.add 32 (.x 93) (.x 65)), .adc 64 32 (.c 0) (.x 48) (.x 78), .adc 64 32 (.x 96) (.x 50) (.x 80), .adc 64 32 (.x 98) (.x 52) (.x 82),
  .adc 64 32 (.x 100) (.x 54) (.x 84), .adc 64 32 (.x 102) (.x 56) (.x 86), .adc 64 32 (.x 104) (.x 58) (.x 88),
  .adc 64 32 (.x 106) (.x 60) (.x 90), .adc 64 32 (.x 108) (.x 62) (.x 92), .adc 64 32 (.x 110) (.x 63) (.x 94),
  .mulx 32 (.x 95) (.c 0xa3347857), .mulx 32 (.x 113) (.c 0x80000000), .mulx 32 (.x 113) (.c 0xc99), .adc 64 32 (.c 0) (.x 95) (.x 117),
  .adc 64 32 (.x 120) (.x 97) (.x 118), .adc 64 32 (.x 122) (.x 99) (.c 0), .adc 64 32 (.x 124) (.x 101) (.c 0),
  .adc 64 32 (.x 126) (.x 103) (.c 0), .adc 64 32 (.x 128) (.x 105) (.c 0), .adc 64 32 (.x 130) (.x 107) (.c 0),
  .adc 64 32 (.x 132) (.x 109) (.x 115), .adc 64 32 (.x 134) (.x 111) (.x 116), .set (.add 32 (.x 136) (.x 112)), .mulx 32 (.x 2) (.b 7),
  .mulx 32 (.x 2) (.b 6), .mulx 32 (.x 2) (.b 5), .mulx 32 (.x 2) (.b 4), .mulx 32 (.x 2) (.b 3), .mulx 32 (.x 2) (.b 2),
  .mulx 32 (.x 2) (.b 1), .mulx 32 (.x 2) (.b 0), .adc 64 32 (.c 0) (.x 153) (.x 150), .adc 64 32 (.x 155) (.x 151) (.x 148),
  .adc 64 32 (.x 157) (.x 149) (.x 146), .adc 64 32 (.x 159) (.x 147) (.x 144), .adc 64 32 (.x 161) (.x 145) (.x 142),
  .adc 64 32 (.x 163) (.x 143) (.x 140), .adc 64 32 (.x 165) (.x 141) (.x 138), .set (.add 32 (.x 167) (.x 139)),
  .adc 64 32 (.c 0) (.x 121) (.x 152), .adc 64 32 (.x 170) (.x 123) (.x 154), .adc 64 32 (.x 172) (.x 125) (.x 156),
  .adc 64 32 (.x 174) (.x 127) (.x 158), .adc 64 32 (.x 176) (.x 129) (.x 160), .adc 64 32 (.x 178) (.x 131) (.x 162),
  .adc 64 32 (.x 180) (.x 133) (.x 164), .adc 64 32 (.x 182) (.x 135) (.x 166), .adc 64 32 (.x 184) (.x 137) (.x 168),
  .mulx 32 (.x 169) (.c 0xa3347857), .mulx 32 (.x 187) (.c 0x80000000), .mulx 32 (.x 187) (.c 0xc99), .adc 64 32 (.c 0) (.x 169) (.x 191),
  .adc 64 32 (.x 194) (.x 171) (.x 192), .adc 64 32 (.x 196) (.x 173) (.c 0), .adc 64 32 (.x 198) (.x 175) (.c 0),
  .adc 64 32 (.x 200) (.x 177) (.c 0), .adc 64 32 (.x 202) (.x 179) (.c 0), .adc 64 32 (.x 204) (.x 181) (.c 0),
  .adc 64 32 (.x 206) (.x 183) (.x 189), .adc 64 32 (.x 208) (.x 185) (.x 190), .set (.add 32 (.x 210) (.x 186)), .mulx 32 (.x 3) (.b 7),
  .mulx 32 (.x 3) (.b 6), .mulx 32 (.x 3) (.b 5), .mulx 32 (.x 3) (.b 4), .mulx 32 (.x 3) (.b 3), .mulx 32 (.x 3) (.b 2),
  .mulx 32 (.x 3) (.b 1), .mulx 32 (.x 3) (.b 0), .adc 64 32 (.c 0) (.x 227) (.x 224), .adc 64 32 (.x 229) (.x 225) (.x 222),
  .adc 64 32 (.x 231) (.x 223) (.x 220), .adc 64 32 (.x 233) (.x 221) (.x 218), .adc 64 32 (.x 235) (.x 219) (.x 216),
  .adc 64 32 (.x 237) (.x 217) (.x 214), .adc 64 32 (.x 239) (.x 215) (.x 212), .set (.add 32 (.x 241) (.x 213)),
  .adc 64 32 (.c 0) (.x 195) (.x 226), .adc 64 32 (.x 244) (.x 197) (.x 228), .adc 64 32 (.x 246) (.x 199) (.x 230),
  .adc 64 32 (.x 248) (.x 201) (.x 232), .adc 64 32 (.x 250) (.x 203) (.x 234), .adc 64 32 (.x 252) (.x 205) (.x 236),
  .adc 64 32 (.x 254) (.x 207) (.x 238), .adc 64 32 (.x 256) (.x 209) (.x 240), .adc 64 32 (.x 258) (.x 211) (.x 242),
  .mulx 32 (.x 243) (.c 0xa3347857), .mulx 32 (.x 261) (.c 0x80000000), .mulx 32 (.x 261) (.c 0xc99), .adc 64 32 (.c 0) (.x 243) (.x 265),
  .adc 64 32 (.x 268) (.x 245) (.x 266), .adc 64 32 (.x 270) (.x 247) (.c 0), .adc 64 32 (.x 272) (.x 249) (.c 0),
  .adc 64 32 (.x 274) (.x 251) (.c 0), .adc 64 32 (.x 276) (.x 253) (.c 0), .adc 64 32 (.x 278) (.x 255) (.c 0),
  .adc 64 32 (.x 280) (.x 257) (.x 263), .adc 64 32 (.x 282) (.x 259) (.x 264), .set (.add 32 (.x 284) (.x 260)), .mulx 32 (.x 4) (.b 7),
  .mulx 32 (.x 4) (.b 6), .mulx 32 (.x 4) (.b 5), .mulx 32 (.x 4) (.b 4), .mulx 32 (.x 4) (.b 3), .mulx 32 (.x 4) (.b 2),
  .mulx 32 (.x 4) (.b 1), .mulx 32 (.x 4) (.b 0), .adc 64 32 (.c 0) (.x 301) (.x 298), .adc 64 32 (.x 303) (.x 299) (.x 296),
  .adc 64 32 (.x 305) (.x 297) (.x 294), .adc 64 32 (.x 307) (.x 295) (.x 292), .adc 64 32 (.x 309) (.x 293) (.x 290),
  .adc 64 32 (.x 311) (.x 291) (.x 288), .adc 64 32 (.x 313) (.x 289) (.x 286), .set (.add 32 (.x 315) (.x 287)),
  .adc 64 32 (.c 0) (.x 269) (.x 300), .adc 64 32 (.x 318) (.x 271) (.x 302), .adc 64 32 (.x 320) (.x 273) (.x 304),
  .adc 64 32 (.x 322) (.x 275) (.x 306), .adc 64 32 (.x 324) (.x 277) (.x 308), .adc 64 32 (.x 326) (.x 279) (.x 310),
  .adc 64 32 (.x 328) (.x 281) (.x 312), .adc 64 32 (.x 330) (.x 283) (.x 314), .adc 64 32 (.x 332) (.x 285) (.x 316),
  .mulx 32 (.x 317) (.c 0xa3347857), .mulx 32 (.x 335) (.c 0x80000000), .mulx 32 (.x 335) (.c 0xc99), .adc 64 32 (.c 0) (.x 317) (.x 339),
  .adc 64 32 (.x 342) (.x 319) (.x 340), .adc 64 32 (.x 344) (.x 321) (.c 0), .adc 64 32 (.x 346) (.x 323) (.c 0),
  .adc 64 32 (.x 348) (.x 325) (.c 0), .adc 64 32 (.x 350) (.x 327) (.c 0), .adc 64 32 (.x 352) (.x 329) (.c 0),
  .adc 64 32 (.x 354) (.x 331) (.x 337), .adc 64 32 (.x 356) (.x 333) (.x 338), .set (.add 32 (.x 358) (.x 334)), .mulx 32 (.x 5) (.b 7),
  .mulx 32 (.x 5) (.b 6), .mulx 32 (.x 5) (.b 5), .mulx 32 (.x 5) (.b 4), .mulx 32 (.x 5) (.b 3), .mulx 32 (.x 5) (.b 2),
  .mulx 32 (.x 5) (.b 1), .mulx 32 (.x 5) (.b 0), .adc 64 32 (.c 0) (.x 375) (.x 372), .adc 64 32 (.x 377) (.x 373) (.x 370),
  .adc 64 32 (.x 379) (.x 371) (.x 368), .adc 64 32 (.x 381) (.x 369) (.x 366), .adc 64 32 (.x 383) (.x 367) (.x 364),
  .adc 64 32 (.x 385) (.x 365) (.x 362), .adc 64 32 (.x 387) (.x 363) (.x 360), .set (.add 32 (.x 389) (.x 361)),
  .adc 64 32 (.c 0) (.x 343) (.x 374), .adc 64 32 (.x 392) (.x 345) (.x 376), .adc 64 32 (.x 394) (.x 347) (.x 378),
  .adc 64 32 (.x 396) (.x 349) (.x 380), .adc 64 32 (.x 398) (.x 351) (.x 382), .adc 64 32 (.x 400) (.x 353) (.x 384),
  .adc 64 32 (.x 402) (.x 355) (.x 386), .adc 64 32 (.x 404) (.x 357) (.x 388), .adc 64 32 (.x 406) (.x 359) (.x 390),
  .mulx 32 (.x 391) (.c 0xa3347857), .mulx 32 (.x 409) (.c 0x80000000), .mulx 32 (.x 409) (.c 0xc99), .adc 64 32 (.c 0) (.x 391) (.x 413),
  .adc 64 32 (.x 416) (.x 393) (.x 414), .adc 64 32 (.x 418) (.x 395) (.c 0), .adc 64 32 (.x 420) (.x 397) (.c 0),
  .adc 64 32 (.x 422) (.x 399) (.c 0), .adc 64 32 (.x 424) (.x 401) (.c 0), .adc 64 32 (.x 426) (.x 403) (.c 0),
  .adc 64 32 (.x 428) (.x 405) (.x 411), .adc 64 32 (.x 430) (.x 407) (.x 412), .set (.add 32 (.x 432) (.x 408)), .mulx 32 (.x 6) (.b 7),
  .mulx 32 (.x 6) (.b 6), .mulx 32 (.x 6) (.b 5), .mulx 32 (.x 6) (.b 4), .mulx 32 (.x 6) (.b 3), .mulx 32 (.x 6) (.b 2),
  .mulx 32 (.x 6) (.b 1), .mulx 32 (.x 6) (.b 0), .adc 64 32 (.c 0) (.x 449) (.x 446), .adc 64 32 (.x 451) (.x 447) (.x 444),
  .adc 64 32 (.x 453) (.x 445) (.x 442), .adc 64 32 (.x 455) (.x 443) (.x 440), .adc 64 32 (.x 457) (.x 441) (.x 438),
  .adc 64 32 (.x 459) (.x 439) (.x 436), .adc 64 32 (.x 461) (.x 437) (.x 434), .set (.add 32 (.x 463) (.x 435)),
  .adc 64 32 (.c 0) (.x 417) (.x 448), .adc 64 32 (.x 466) (.x 419) (.x 450), .adc 64 32 (.x 468) (.x 421) (.x 452),
  .adc 64 32 (.x 470) (.x 423) (.x 454), .adc 64 32 (.x 472) (.x 425) (.x 456), .adc 64 32 (.x 474) (.x 427) (.x 458),
  .adc 64 32 (.x 476) (.x 429) (.x 460), .adc 64 32 (.x 478) (.x 431) (.x 462), .adc 64 32 (.x 480) (.x 433) (.x 464),
  .mulx 32 (.x 465) (.c 0xa3347857), .mulx 32 (.x 483) (.c 0x80000000), .mulx 32 (.x 483) (.c 0xc99), .adc 64 32 (.c 0) (.x 465) (.x 487),
  .adc 64 32 (.x 490) (.x 467) (.x 488), .adc 64 32 (.x 492) (.x 469) (.c 0), .adc 64 32 (.x 494) (.x 471) (.c 0),
  .adc 64 32 (.x 496) (.x 473) (.c 0), .adc 64 32 (.x 498) (.x 475) (.c 0), .adc 64 32 (.x 500) (.x 477) (.c 0),
  .adc 64 32 (.x 502) (.x 479) (.x 485), .adc 64 32 (.x 504) (.x 481) (.x 486), .set (.add 32 (.x 506) (.x 482)), .mulx 32 (.x 7) (.b 7),
  .mulx 32 (.x 7) (.b 6), .mulx 32 (.x 7) (.b 5), .mulx 32 (.x 7) (.b 4), .mulx 32 (.x 7) (.b 3), .mulx 32 (.x 7) (.b 2),
  .mulx 32 (.x 7) (.b 1), .mulx 32 (.x 7) (.b 0), .adc 64 32 (.c 0) (.x 523) (.x 520), .adc 64 32 (.x 525) (.x 521) (.x 518),
  .adc 64 32 (.x 527) (.x 519) (.x 516), .adc 64 32 (.x 529) (.x 517) (.x 514), .adc 64 32 (.x 531) (.x 515) (.x 512),
  .adc 64 32 (.x 533) (.x 513) (.x 510), .adc 64 32 (.x 535) (.x 511) (.x 508), .set (.add 32 (.x 537) (.x 509)),
  .adc 64 32 (.c 0) (.x 491) (.x 522), .adc 64 32 (.x 540) (.x 493) (.x 524), .adc 64 32 (.x 542) (.x 495) (.x 526),
  .adc 64 32 (.x 544) (.x 497) (.x 528), .adc 64 32 (.x 546) (.x 499) (.x 530), .adc 64 32 (.x 548) (.x 501) (.x 532),
  .adc 64 32 (.x 550) (.x 503) (.x 534), .adc 64 32 (.x 552) (.x 505) (.x 536), .adc 64 32 (.x 554) (.x 507) (.x 538),
  .mulx 32 (.x 539) (.c 0xa3347857), .mulx 32 (.x 557) (.c 0x80000000), .mulx 32 (.x 557) (.c 0xc99), .adc 64 32 (.c 0) (.x 539) (.x 561),
  .adc 64 32 (.x 564) (.x 541) (.x 562), .adc 64 32 (.x 566) (.x 543) (.c 0), .adc 64 32 (.x 568) (.x 545) (.c 0),
  .adc 64 32 (.x 570) (.x 547) (.c 0), .adc 64 32 (.x 572) (.x 549) (.c 0), .adc 64 32 (.x 574) (.x 551) (.c 0),
  .adc 64 32 (.x 576) (.x 553) (.x 559), .adc 64 32 (.x 578) (.x 555) (.x 560), .set (.add 32 (.x 580) (.x 556)),
  .sbb 64 32 (.c 0) (.x 565) (.c 0xc99), .sbb 64 32 (.x 583) (.x 567) (.c 0), .sbb 64 32 (.x 585) (.x 569) (.c 0),
  .sbb 64 32 (.x 587) (.x 571) (.c 0), .sbb 64 32 (.x 589) (.x 573) (.c 0), .sbb 64 32 (.x 591) (.x 575) (.c 0),
  .sbb 64 32 (.x 593) (.x 577) (.c 0), .sbb 64 32 (.x 595) (.x 579) (.c 0x80000000), .sbb 64 32 (.x 597) (.x 581) (.c 0),
  .cmov 32 (.x 599) (.x 582) (.x 565), .cmov 32 (.x 599) (.x 584) (.x 567), .cmov 32 (.x 599) (.x 586) (.x 569),
  .cmov 32 (.x 599) (.x 588) (.x 571), .cmov 32 (.x 599) (.x 590) (.x 573), .cmov 32 (.x 599) (.x 592) (.x 575),
  .cmov 32 (.x 599) (.x 594) (.x 577), .cmov 32 (.x 599) (.x 596) (.x 579)], [600, 601, 602, 603, 604, 605, 606, 607]⟩

/-- `fiat_id_GostR3410_2001_CryptoPro_B_ParamSet_square`, lines 5869-7101. -/
def square : CProg := ⟨[
  .set (.a 1), .set (.a 2), .set (.a 3), .set (.a 4), .set (.a 5), .set (.a 6), .set (.a 7), .set (.a 0), .mulx 32 (.x 8) (.a 7),
  .mulx 32 (.x 8) (.a 6), .mulx 32 (.x 8) (.a 5), .mulx 32 (.x 8) (.a 4), .mulx 32 (.x 8) (.a 3), .mulx 32 (.x 8) (.a 2),
  .mulx 32 (.x 8) (.a 1), .mulx 32 (.x 8) (.a 0), .adc 64 32 (.c 0) (.x 24) (.x 21), .adc 64 32 (.x 26) (.x 22) (.x 19),
  .adc 64 32 (.x 28) (.x 20) (.x 17), .adc 64 32 (.x 30) (.x 18) (.x 15), .adc 64 32 (.x 32) (.x 16) (.x 13),
  .adc 64 32 (.x 34) (.x 14) (.x 11), .adc 64 32 (.x 36) (.x 12) (.x 9), .set (.add 32 (.x 38) (.x 10)), .mulx 32 (.x 23) (.c 0xa3347857),
  .mulx 32 (.x 40) (.c 0x80000000), .mulx 32 (.x 40) (.c 0xc99), .adc 64 32 (.c 0) (.x 23) (.x 44), .adc 64 32 (.x 47) (.x 25) (.x 45),
  .adc 64 32 (.x 49) (.x 27) (.c 0), .adc 64 32 (.x 51) (.x 29) (.c 0), .adc 64 32 (.x 53) (.x 31) (.c 0),
  .adc 64 32 (.x 55) (.x 33) (.c 0), .adc 64 32 (.x 57) (.x 35) (.c 0), .adc 64 32 (.x 59) (.x 37) (.x 42),
  .adc 64 32 (.x 61) (.x 39) (.x 43), .mulx 32 (.x 1) (.a 7), .mulx 32 (.x 1) (.a 6), .mulx 32 (.x 1) (.a 5), .mulx 32 (.x 1) (.a 4),
  .mulx 32 (.x 1) (.a 3), .mulx 32 (.x 1) (.a 2), .mulx 32 (.x 1) (.a 1), .mulx 32 (.x 1) (.a 0), .adc 64 32 (.c 0) (.x 79) (.x 76),
  .adc 64 32 (.x 81) (.x 77) (.x 74), .adc 64 32 (.x 83) (.x 75) (.x 72), .adc 64 32 (.x 85) (.x 73) (.x 70),
  .adc 64 32 (.x 87) (.x 71) (.x 68), .adc 64 32 (.x 89) (.x 69) (.x 66), .adc 64 32 (.x 91) (.x 67) (.x 64),
  .set (.add 32 (.x 93) (.x 65)), .adc 64 32 (.c 0) (.x 48) (.x 78), .adc 64 32 (.x 96) (.x 50) (.x 80), .adc 64 32 (.x 98) (.x 52) (.x 82),
  .adc 64 32 (.x 100) (.x 54) (.x 84), .adc 64 32 (.x 102) (.x 56) (.x 86), .adc 64 32 (.x 104) (.x 58) (.x 88),
  .adc 64 32 (.x 106) (.x 60) (.x 90), .adc 64 32 (.x 108) (.x 62) (.x 92), .adc 64 32 (.x 110) (.x 63) (.x 94),
  .mulx 32 (.x 95) (.c 0xa3347857), .mulx 32 (.x 113) (.c 0x80000000), .mulx 32 (.x 113) (.c 0xc99), .adc 64 32 (.c 0) (.x 95) (.x 117),
  .adc 64 32 (.x 120) (.x 97) (.x 118), .adc 64 32 (.x 122) (.x 99) (.c 0), .adc 64 32 (.x 124) (.x 101) (.c 0),
  .adc 64 32 (.x 126) (.x 103) (.c 0), .adc 64 32 (.x 128) (.x 105) (.c 0), .adc 64 32 (.x 130) (.x 107) (.c 0),
  .adc 64 32 (.x 132) (.x 109) (.x 115), .adc 64 32 (.x 134) (.x 111) (.x 116), .set (.add 32 (.x 136) (.x 112)), .mulx 32 (.x 2) (.a 7),
  .mulx 32 (.x 2) (.a 6), .mulx 32 (.x 2) (.a 5), .mulx 32 (.x 2) (.a 4), .mulx 32 (.x 2) (.a 3), .mulx 32 (.x 2) (.a 2),
  .mulx 32 (.x 2) (.a 1), .mulx 32 (.x 2) (.a 0), .adc 64 32 (.c 0) (.x 153) (.x 150), .adc 64 32 (.x 155) (.x 151) (.x 148),
  .adc 64 32 (.x 157) (.x 149) (.x 146), .adc 64 32 (.x 159) (.x 147) (.x 144), .adc 64 32 (.x 161) (.x 145) (.x 142),
  .adc 64 32 (.x 163) (.x 143) (.x 140), .adc 64 32 (.x 165) (.x 141) (.x 138), .set (.add 32 (.x 167) (.x 139)),
  .adc 64 32 (.c 0) (.x 121) (.x 152), .adc 64 32 (.x 170) (.x 123) (.x 154), .adc 64 32 (.x 172) (.x 125) (.x 156),
  .adc 64 32 (.x 174) (.x 127) (.x 158), .adc 64 32 (.x 176) (.x 129) (.x 160), .adc 64 32 (.x 178) (.x 131) (.x 162),
  .adc 64 32 (.x 180) (.x 133) (.x 164), .adc 64 32 (.x 182) (.x 135) (.x 166), .adc 64 32 (.x 184) (.x 137) (.x 168),
  .mulx 32 (.x 169) (.c 0xa3347857), .mulx 32 (.x 187) (.c 0x80000000), .mulx 32 (.x 187) (.c 0xc99), .adc 64 32 (.c 0) (.x 169) (.x 191),
  .adc 64 32 (.x 194) (.x 171) (.x 192), .adc 64 32 (.x 196) (.x 173) (.c 0), .adc 64 32 (.x 198) (.x 175) (.c 0),
  .adc 64 32 (.x 200) (.x 177) (.c 0), .adc 64 32 (.x 202) (.x 179) (.c 0), .adc 64 32 (.x 204) (.x 181) (.c 0),
  .adc 64 32 (.x 206) (.x 183) (.x 189), .adc 64 32 (.x 208) (.x 185) (.x 190), .set (.add 32 (.x 210) (.x 186)), .mulx 32 (.x 3) (.a 7),
  .mulx 32 (.x 3) (.a 6), .mulx 32 (.x 3) (.a 5), .mulx 32 (.x 3) (.a 4), .mulx 32 (.x 3) (.a 3), .mulx 32 (.x 3) (.a 2),
  .mulx 32 (.x 3) (.a 1), .mulx 32 (.x 3) (.a 0), .adc 64 32 (.c 0) (.x 227) (.x 224), .adc 64 32 (.x 229) (.x 225) (.x 222),
  .adc 64 32 (.x 231) (.x 223) (.x 220), .adc 64 32 (.x 233) (.x 221) (.x 218), .adc 64 32 (.x 235) (.x 219) (.x 216),
  .adc 64 32 (.x 237) (.x 217) (.x 214), .adc 64 32 (.x 239) (.x 215) (.x 212), .set (.add 32 (.x 241) (.x 213)),
  .adc 64 32 (.c 0) (.x 195) (.x 226), .adc 64 32 (.x 244) (.x 197) (.x 228), .adc 64 32 (.x 246) (.x 199) (.x 230),
  .adc 64 32 (.x 248) (.x 201) (.x 232), .adc 64 32 (.x 250) (.x 203) (.x 234), .adc 64 32 (.x 252) (.x 205) (.x 236),
  .adc 64 32 (.x 254) (.x 207) (.x 238), .adc 64 32 (.x 256) (.x 209) (.x 240), .adc 64 32 (.x 258) (.x 211) (.x 242),
  .mulx 32 (.x 243) (.c 0xa3347857), .mulx 32 (.x 261) (.c 0x80000000), .mulx 32 (.x 261) (.c 0xc99), .adc 64 32 (.c 0) (.x 243) (.x 265),
  .adc 64 32 (.x 268) (.x 245) (.x 266), .adc 64 32 (.x 270) (.x 247) (.c 0), .adc 64 32 (.x 272) (.x 249) (.c 0),
  .adc 64 32 (.x 274) (.x 251) (.c 0), .adc 64 32 (.x 276) (.x 253) (.c 0), .adc 64 32 (.x 278) (.x 255) (.c 0),
  .adc 64 32 (.x 280) (.x 257) (.x 263), .adc 64 32 (.x 282) (.x 259) (.x 264), .set (.add 32 (.x 284) (.x 260)), .mulx 32 (.x 4) (.a 7),
  .mulx 32 (.x 4) (.a 6), .mulx 32 (.x 4) (.a 5), .mulx 32 (.x 4) (.a 4), .mulx 32 (.x 4) (.a 3), .mulx 32 (.x 4) (.a 2),
  .mulx 32 (.x 4) (.a 1), .mulx 32 (.x 4) (.a 0), .adc 64 32 (.c 0) (.x 301) (.x 298), .adc 64 32 (.x 303) (.x 299) (.x 296),
  .adc 64 32 (.x 305) (.x 297) (.x 294), .adc 64 32 (.x 307) (.x 295) (.x 292), .adc 64 32 (.x 309) (.x 293) (.x 290),
  .adc 64 32 (.x 311) (.x 291) (.x 288), .adc 64 32 (.x 313) (.x 289) (.x 286), .set (.add 32 (.x 315) (.x 287)),
  .adc 64 32 (.c 0) (.x 269) (.x 300), .adc 64 32 (.x 318) (.x 271) (.x 302), .adc 64 32 (.x 320) (.x 273) (.x 304),
  .adc 64 32 (.x 322) (.x 275) (.x 306), .adc 64 32 (.x 324) (.x 277) (.x 308), .adc 64 32 (.x 326) (.x 279) (.x 310),
  .adc 64 32 (.x 328) (.x 281) (.x 312), .adc 64 32 (.x 330) (.x 283) (.x 314), .adc 64 32 (.x 332) (.x 285) (.x 316),
  .mulx 32 (.x 317) (.c 0xa3347857), .mulx 32 (.x 335) (.c 0x80000000), .mulx 32 (.x 335) (.c 0xc99), .adc 64 32 (.c 0) (.x 317) (.x 339),
  .adc 64 32 (.x 342) (.x 319) (.x 340), .adc 64 32 (.x 344) (.x 321) (.c 0), .adc 64 32 (.x 346) (.x 323) (.c 0),
  .adc 64 32 (.x 348) (.x 325) (.c 0), .adc 64 32 (.x 350) (.x 327) (.c 0), .adc 64 32 (.x 352) (.x 329) (.c 0),
  .adc 64 32 (.x 354) (.x 331) (.x 337), .adc 64 32 (.x 356) (.x 333) (.x 338), .set (.add 32 (.x 358) (.x 334)), .mulx 32 (.x 5) (.a 7),
  .mulx 32 (.x 5) (.a 6), .mulx 32 (.x 5) (.a 5), .mulx 32 (.x 5) (.a 4), .mulx 32 (.x 5) (.a 3), .mulx 32 (.x 5) (.a 2),
  .mulx 32 (.x 5) (.a 1), .mulx 32 (.x 5) (.a 0), .adc 64 32 (.c 0) (.x 375) (.x 372), .adc 64 32 (.x 377) (.x 373) (.x 370),
  .adc 64 32 (.x 379) (.x 371) (.x 368), .adc 64 32 (.x 381) (.x 369) (.x 366), .adc 64 32 (.x 383) (.x 367) (.x 364),
  .adc 64 32 (.x 385) (.x 365) (.x 362), .adc 64 32 (.x 387) (.x 363) (.x 360), .set (.add 32 (.x 389) (.x 361)),
  .adc 64 32 (.c 0) (.x 343) (.x 374), .adc 64 32 (.x 392) (.x 345) (.x 376), .adc 64 32 (.x 394) (.x 347) (.x 378),
  .adc 64 32 (.x 396) (.x 349) (.x 380), .adc 64 32 (.x 398) (.x 351) (.x 382), .adc 64 32 (.x 400) (.x 353) (.x 384),
  .adc 64 32 (.x 402) (.x 355) (.x 386), .adc 64 32 (.x 404) (.x 357) (.x 388), .adc 64 32 (.x 406) (.x 359) (.x 390),
  .mulx 32 (.x 391) (.c 0xa3347857), .mulx 32 (.x 409) (.c 0x80000000), .mulx 32 (.x 409) (.c 0xc99), .adc 64 32 (.c 0) (.x 391) (.x 413),
  .adc 64 32 (.x 416) (.x 393) (.x 414), .adc 64 32 (.x 418) (.x 395) (.c 0), .adc 64 32 (.x 420) (.x 397) (.c 0),
  .adc 64 32 (.x 422) (.x 399) (.c 0), .adc 64 32 (.x 424) (.x 401) (.c 0), .adc 64 32 (.x 426) (.x 403) (.c 0),
  .adc 64 32 (.x 428) (.x 405) (.x 411), .adc 64 32 (.x 430) (.x 407) (.x 412), .set (.add 32 (.x 432) (.x 408)), .mulx 32 (.x 6) (.a 7),
  .mulx 32 (.x 6) (.a 6), .mulx 32 (.x 6) (.a 5), .mulx 32 (.x 6) (.a 4), .mulx 32 (.x 6) (.a 3), .mulx 32 (.x 6) (.a 2),
  .mulx 32 (.x 6) (.a 1), .mulx 32 (.x 6) (.a 0), .adc 64 32 (.c 0) (.x 449) (.x 446), .adc 64 32 (.x 451) (.x 447) (.x 444),
  .adc 64 32 (.x 453) (.x 445) (.x 442), .adc 64 32 (.x 455) (.x 443) (.x 440), .adc 64 32 (.x 457) (.x 441) (.x 438),
  .adc 64 32 (.x 459) (.x 439) (.x 436), .adc 64 32 (.x 461) (.x 437) (.x 434), .set (.add 32 (.x 463) (.x 435)),
  .adc 64 32 (.c 0) (.x 417) (.x 448), .adc 64 32 (.x 466) (.x 419) (.x 450), .adc 64 32 (.x 468) (.x 421) (.x 452),
  .adc 64 32 (.x 470) (.x 423) (.x 454), .adc 64 32 (.x 472) (.x 425) (.x 456), .adc 64 32 (.x 474) (.x 427) (.x 458),
  .adc 64 32 (.x 476) (.x 429) (.x 460), .adc 64 32 (.x 478) (.x 431) (.x 462), .adc 64 32 (.x 480) (.x 433) (.x 464),
  .mulx 32 (.x 465) (.c 0xa3347857), .mulx 32 (.x 483) (.c 0x80000000), .mulx 32 (.x 483) (.c 0xc99), .adc 64 32 (.c 0) (.x 465) (.x 487),
  .adc 64 32 (.x 490) (.x 467) (.x 488), .adc 64 32 (.x 492) (.x 469) (.c 0), .adc 64 32 (.x 494) (.x 471) (.c 0),
  .adc 64 32 (.x 496) (.x 473) (.c 0), .adc 64 32 (.x 498) (.x 475) (.c 0), .adc 64 32 (.x 500) (.x 477) (.c 0),
  .adc 64 32 (.x 502) (.x 479) (.x 485), .adc 64 32 (.x 504) (.x 481) (.x 486), .set (.add 32 (.x 506) (.x 482)), .mulx 32 (.x 7) (.a 7),
  .mulx 32 (.x 7) (.a 6), .mulx 32 (.x 7) (.a 5), .mulx 32 (.x 7) (.a 4), .mulx 32 (.x 7) (.a 3), .mulx 32 (.x 7) (.a 2),
  .mulx 32 (.x 7) (.a 1), .mulx 32 (.x 7) (.a 0), .adc 64 32 (.c 0) (.x 523) (.x 520), .adc 64 32 (.x 525) (.x 521) (.x 518),
  .adc 64 32 (.x 527) (.x 519) (.x 516), .adc 64 32 (.x 529) (.x 517) (.x 514), .adc 64 32 (.x 531) (.x 515) (.x 512),
  .adc 64 32 (.x 533) (.x 513) (.x 510), .adc 64 32 (.x 535) (.x 511) (.x 508), .set (.add 32 (.x 537) (.x 509)),
  .adc 64 32 (.c 0) (.x 491) (.x 522), .adc 64 32 (.x 540) (.x 493) (.x 524), .adc 64 32 (.x 542) (.x 495) (.x 526),
  .adc 64 32 (.x 544) (.x 497) (.x 528), .adc 64 32 (.x 546) (.x 499) (.x 530), .adc 64 32 (.x 548) (.x 501) (.x 532),
  .adc 64 32 (.x 550) (.x 503) (.x 534), .adc 64 32 (.x 552) (.x 505) (.x 536), .adc 64 32 (.x 554) (.x 507) (.x 538),
  .mulx 32 (.x 539) (.c 0xa3347857), .mulx 32 (.x 557) (.c 0x80000000), .mulx 32 (.x 557) (.c 0xc99), .adc 64 32 (.c 0) (.x 539) (.x 561),
  .adc 64 32 (.x 564) (.x 541) (.x 562), .adc 64 32 (.x 566) (.x 543) (.c 0), .adc 64 32 (.x 568) (.x 545) (.c 0),
  .adc 64 32 (.x 570) (.x 547) (.c 0), .adc 64 32 (.x 572) (.x 549) (.c 0), .adc 64 32 (.x 574) (.x 551) (.c 0),
  .adc 64 32 (.x 576) (.x 553) (.x 559), .adc 64 32 (.x 578) (.x 555) (.x 560), .set (.add 32 (.x 580) (.x 556)),
  .sbb 64 32 (.c 0) (.x 565) (.c 0xc99), .sbb 64 32 (.x 583) (.x 567) (.c 0), .sbb 64 32 (.x 585) (.x 569) (.c 0),
  .sbb 64 32 (.x 587) (.x 571) (.c 0), .sbb 64 32 (.x 589) (.x 573) (.c 0), .sbb 64 32 (.x 591) (.x 575) (.c 0),
  .sbb 64 32 (.x 593) (.x 577) (.c 0), .sbb 64 32 (.x 595) (.x 579) (.c 0x80000000), .sbb 64 32 (.x 597) (.x 581) (.c 0),
  .cmov 32 (.x 599) (.x 582) (.x 565), .cmov 32 (.x 599) (.x 584) (.x 567), .cmov 32 (.x 599) (.x 586) (.x 569),
  .cmov 32 (.x 599) (.x 588) (.x 571), .cmov 32 (.x 599) (.x 590) (.x 573), .cmov 32 (.x 599) (.x 592) (.x 575),
  .cmov 32 (.x 599) (.x 594) (.x 577), .cmov 32 (.x 599) (.x 596) (.x 579)], [600, 601, 602, 603, 604, 605, 606, 607]⟩

/-- `fiat_id_GostR3410_2001_CryptoPro_B_ParamSet_add`, lines 7118-7215. -/
def add : CProg := ⟨[
  .adc 64 32 (.c 0) (.a 0) (.b 0), .adc 64 32 (.x 2) (.a 1) (.b 1), .adc 64 32 (.x 4) (.a 2) (.b 2), .adc 64 32 (.x 6) (.a 3) (.b 3),
  .adc 64 32 (.x 8) (.a 4) (.b 4), .adc 64 32 (.x 10) (.a 5) (.b 5), .adc 64 32 (.x 12) (.a 6) (.b 6), .adc 64 32 (.x 14) (.a 7) (.b 7),
  .sbb 64 32 (.c 0) (.x 1) (.c 0xc99), .sbb 64 32 (.x 18) (.x 3) (.c 0), .sbb 64 32 (.x 20) (.x 5) (.c 0), .sbb 64 32 (.x 22) (.x 7) (.c 0),
  .sbb 64 32 (.x 24) (.x 9) (.c 0), .sbb 64 32 (.x 26) (.x 11) (.c 0), .sbb 64 32 (.x 28) (.x 13) (.c 0),
  .sbb 64 32 (.x 30) (.x 15) (.c 0x80000000), .sbb 64 32 (.x 32) (.x 16) (.c 0), .cmov 32 (.x 34) (.x 17) (.x 1),
  .cmov 32 (.x 34) (.x 19) (.x 3), .cmov 32 (.x 34) (.x 21) (.x 5), .cmov 32 (.x 34) (.x 23) (.x 7), .cmov 32 (.x 34) (.x 25) (.x 9),
  .cmov 32 (.x 34) (.x 27) (.x 11), .cmov 32 (.x 34) (.x 29) (.x 13), .cmov 32 (.x 34) (.x 31) (.x 15)], [35, 36, 37, 38, 39, 40, 41, 42]⟩

/-- `fiat_id_GostR3410_2001_CryptoPro_B_ParamSet_sub`, lines 7232-7309. -/
def sub : CProg := ⟨[
  .sbb 64 32 (.c 0) (.a 0) (.b 0), .sbb 64 32 (.x 2) (.a 1) (.b 1), .sbb 64 32 (.x 4) (.a 2) (.b 2), .sbb 64 32 (.x 6) (.a 3) (.b 3),
  .sbb 64 32 (.x 8) (.a 4) (.b 4), .sbb 64 32 (.x 10) (.a 5) (.b 5), .sbb 64 32 (.x 12) (.a 6) (.b 6), .sbb 64 32 (.x 14) (.a 7) (.b 7),
  .cmov 32 (.x 16) (.c 0) (.c 0xffffffff), .adc 64 32 (.c 0) (.x 1) (.and (.x 17) (.c 0xc99)), .adc 64 32 (.x 19) (.x 3) (.c 0),
  .adc 64 32 (.x 21) (.x 5) (.c 0), .adc 64 32 (.x 23) (.x 7) (.c 0), .adc 64 32 (.x 25) (.x 9) (.c 0), .adc 64 32 (.x 27) (.x 11) (.c 0),
  .adc 64 32 (.x 29) (.x 13) (.c 0), .adc 64 32 (.x 31) (.x 15) (.and (.x 17) (.c 0x80000000))], [18, 20, 22, 24, 26, 28, 30, 32]⟩

/-- `fiat_id_GostR3410_2001_CryptoPro_B_ParamSet_opp`, lines 7324-7401. -/
def opp : CProg := ⟨[
  .sbb 64 32 (.c 0) (.c 0) (.a 0), .sbb 64 32 (.x 2) (.c 0) (.a 1), .sbb 64 32 (.x 4) (.c 0) (.a 2), .sbb 64 32 (.x 6) (.c 0) (.a 3),
  .sbb 64 32 (.x 8) (.c 0) (.a 4), .sbb 64 32 (.x 10) (.c 0) (.a 5), .sbb 64 32 (.x 12) (.c 0) (.a 6), .sbb 64 32 (.x 14) (.c 0) (.a 7),
  .cmov 32 (.x 16) (.c 0) (.c 0xffffffff), .adc 64 32 (.c 0) (.x 1) (.and (.x 17) (.c 0xc99)), .adc 64 32 (.x 19) (.x 3) (.c 0),
  .adc 64 32 (.x 21) (.x 5) (.c 0), .adc 64 32 (.x 23) (.x 7) (.c 0), .adc 64 32 (.x 25) (.x 9) (.c 0), .adc 64 32 (.x 27) (.x 11) (.c 0),
  .adc 64 32 (.x 29) (.x 13) (.c 0), .adc 64 32 (.x 31) (.x 15) (.and (.x 17) (.c 0x80000000))], [18, 20, 22, 24, 26, 28, 30, 32]⟩

/-- `fiat_id_GostR3410_2001_CryptoPro_B_ParamSet_from_montgomery`, lines 7416-7770. -/
def from_montgomery : CProg := ⟨[
  .set (.a 0), .mulx 32 (.x 1) (.c 0xa3347857), .mulx 32 (.x 2) (.c 0x80000000), .mulx 32 (.x 2) (.c 0xc99),
  .adc 64 32 (.c 0) (.x 1) (.x 6), .adc 64 32 (.c 0) (.add 32 (.x 9) (.x 7)) (.a 1), .mulx 32 (.x 10) (.c 0xa3347857),
  .mulx 32 (.x 12) (.c 0x80000000), .mulx 32 (.x 12) (.c 0xc99), .adc 64 32 (.c 0) (.x 5) (.x 14), .adc 64 32 (.c 0) (.x 10) (.x 16),
  .adc 64 32 (.c 0) (.add 32 (.add 32 (.x 21) (.x 11)) (.x 17)) (.a 2), .mulx 32 (.x 22) (.c 0xa3347857), .mulx 32 (.x 24) (.c 0x80000000),
  .mulx 32 (.x 24) (.c 0xc99), .adc 64 32 (.c 0) (.add 32 (.x 19) (.x 15)) (.x 26), .adc 64 32 (.c 0) (.x 22) (.x 28),
  .adc 64 32 (.c 0) (.add 32 (.add 32 (.x 33) (.x 23)) (.x 29)) (.a 3), .mulx 32 (.x 34) (.c 0xa3347857), .mulx 32 (.x 36) (.c 0x80000000),
  .mulx 32 (.x 36) (.c 0xc99), .adc 64 32 (.c 0) (.add 32 (.x 31) (.x 27)) (.x 38), .adc 64 32 (.c 0) (.x 34) (.x 40),
  .adc 64 32 (.c 0) (.add 32 (.add 32 (.x 45) (.x 35)) (.x 41)) (.a 4), .mulx 32 (.x 46) (.c 0xa3347857), .mulx 32 (.x 48) (.c 0x80000000),
  .mulx 32 (.x 48) (.c 0xc99), .adc 64 32 (.c 0) (.add 32 (.x 43) (.x 39)) (.x 50), .adc 64 32 (.c 0) (.x 46) (.x 52),
  .adc 64 32 (.c 0) (.add 32 (.add 32 (.x 57) (.x 47)) (.x 53)) (.a 5), .mulx 32 (.x 58) (.c 0xa3347857), .mulx 32 (.x 60) (.c 0x80000000),
  .mulx 32 (.x 60) (.c 0xc99), .adc 64 32 (.c 0) (.add 32 (.x 55) (.x 51)) (.x 62), .adc 64 32 (.c 0) (.x 58) (.x 64),
  .adc 64 32 (.c 0) (.add 32 (.add 32 (.x 69) (.x 59)) (.x 65)) (.a 6), .adc 64 32 (.x 71) (.x 4) (.c 0), .adc 64 32 (.x 73) (.x 18) (.c 0),
  .adc 64 32 (.x 75) (.x 30) (.c 0), .adc 64 32 (.x 77) (.x 42) (.c 0), .adc 64 32 (.x 79) (.x 54) (.c 0),
  .adc 64 32 (.x 81) (.x 66) (.c 0), .mulx 32 (.x 70) (.c 0xa3347857), .mulx 32 (.x 84) (.c 0x80000000), .mulx 32 (.x 84) (.c 0xc99),
  .adc 64 32 (.c 0) (.x 70) (.x 88), .adc 64 32 (.x 91) (.x 72) (.x 89), .adc 64 32 (.x 93) (.x 74) (.c 0),
  .adc 64 32 (.x 95) (.x 76) (.c 0), .adc 64 32 (.x 97) (.x 78) (.c 0), .adc 64 32 (.x 99) (.x 80) (.c 0),
  .adc 64 32 (.x 101) (.x 82) (.c 0), .adc 64 32 (.x 103) (.add 32 (.x 83) (.add 32 (.x 67) (.x 63))) (.x 86),
  .adc 64 32 (.c 0) (.x 92) (.a 7), .adc 64 32 (.x 107) (.x 94) (.c 0), .adc 64 32 (.x 109) (.x 96) (.c 0),
  .adc 64 32 (.x 111) (.x 98) (.c 0), .adc 64 32 (.x 113) (.x 100) (.c 0), .adc 64 32 (.x 115) (.x 102) (.c 0),
  .adc 64 32 (.x 117) (.x 104) (.c 0), .mulx 32 (.x 106) (.c 0xa3347857), .mulx 32 (.x 120) (.c 0x80000000), .mulx 32 (.x 120) (.c 0xc99),
  .adc 64 32 (.c 0) (.x 106) (.x 124), .adc 64 32 (.x 127) (.x 108) (.x 125), .adc 64 32 (.x 129) (.x 110) (.c 0),
  .adc 64 32 (.x 131) (.x 112) (.c 0), .adc 64 32 (.x 133) (.x 114) (.c 0), .adc 64 32 (.x 135) (.x 116) (.c 0),
  .adc 64 32 (.x 137) (.x 118) (.c 0), .adc 64 32 (.x 139) (.add 32 (.x 119) (.add 32 (.x 105) (.x 87))) (.x 122),
  .set (.add 32 (.x 141) (.x 123)), .sbb 64 32 (.c 0) (.x 128) (.c 0xc99), .sbb 64 32 (.x 144) (.x 130) (.c 0),
  .sbb 64 32 (.x 146) (.x 132) (.c 0), .sbb 64 32 (.x 148) (.x 134) (.c 0), .sbb 64 32 (.x 150) (.x 136) (.c 0),
  .sbb 64 32 (.x 152) (.x 138) (.c 0), .sbb 64 32 (.x 154) (.x 140) (.c 0), .sbb 64 32 (.x 156) (.x 142) (.c 0x80000000),
  .sbb 64 32 (.x 158) (.c 0) (.c 0), .cmov 32 (.x 160) (.x 143) (.x 128), .cmov 32 (.x 160) (.x 145) (.x 130),
  .cmov 32 (.x 160) (.x 147) (.x 132), .cmov 32 (.x 160) (.x 149) (.x 134), .cmov 32 (.x 160) (.x 151) (.x 136),
  .cmov 32 (.x 160) (.x 153) (.x 138), .cmov 32 (.x 160) (.x 155) (.x 140), .cmov 32 (.x 160) (.x 157) (.x 142)], [161, 162, 163, 164, 165, 166, 167, 168]⟩

/-- `fiat_id_GostR3410_2001_CryptoPro_B_ParamSet_to_montgomery`, lines 7785-8169. -/
def to_montgomery : CProg := ⟨[
  .mulx 32 (.a 0) (.c 0x27acdc4), .mulx 32 (.x 1) (.c 0xa3347857), .mulx 32 (.x 3) (.c 0x80000000), .mulx 32 (.x 3) (.c 0xc99),
  .mulx 32 (.a 1) (.c 0x27acdc4), .adc 64 32 (.c 0) (.x 1) (.x 7), .adc 64 32 (.c 0) (.add 32 (.add 32 (.x 12) (.x 2)) (.x 8)) (.x 9),
  .mulx 32 (.x 13) (.c 0xa3347857), .mulx 32 (.x 15) (.c 0x80000000), .mulx 32 (.x 15) (.c 0xc99), .adc 64 32 (.c 0) (.x 6) (.x 17),
  .mulx 32 (.a 2) (.c 0x27acdc4), .adc 64 32 (.c 0) (.x 13) (.x 19),
  .adc 64 32 (.c 0) (.add 32 (.add 32 (.x 26) (.add 32 (.x 14) (.x 10))) (.x 20)) (.x 23), .mulx 32 (.x 27) (.c 0xa3347857),
  .mulx 32 (.x 29) (.c 0x80000000), .mulx 32 (.x 29) (.c 0xc99), .adc 64 32 (.c 0) (.add 32 (.x 22) (.x 18)) (.x 31),
  .mulx 32 (.a 3) (.c 0x27acdc4), .adc 64 32 (.c 0) (.x 27) (.x 33),
  .adc 64 32 (.c 0) (.add 32 (.add 32 (.x 40) (.add 32 (.x 28) (.x 24))) (.x 34)) (.x 37), .mulx 32 (.x 41) (.c 0xa3347857),
  .mulx 32 (.x 43) (.c 0x80000000), .mulx 32 (.x 43) (.c 0xc99), .adc 64 32 (.c 0) (.add 32 (.x 36) (.x 32)) (.x 45),
  .mulx 32 (.a 4) (.c 0x27acdc4), .adc 64 32 (.c 0) (.x 41) (.x 47),
  .adc 64 32 (.c 0) (.add 32 (.add 32 (.x 54) (.add 32 (.x 42) (.x 38))) (.x 48)) (.x 51), .mulx 32 (.x 55) (.c 0xa3347857),
  .mulx 32 (.x 57) (.c 0x80000000), .mulx 32 (.x 57) (.c 0xc99), .adc 64 32 (.c 0) (.add 32 (.x 50) (.x 46)) (.x 59),
  .mulx 32 (.a 5) (.c 0x27acdc4), .adc 64 32 (.c 0) (.x 55) (.x 61),
  .adc 64 32 (.c 0) (.add 32 (.add 32 (.x 68) (.add 32 (.x 56) (.x 52))) (.x 62)) (.x 65), .mulx 32 (.x 69) (.c 0xa3347857),
  .mulx 32 (.x 71) (.c 0x80000000), .mulx 32 (.x 71) (.c 0xc99), .adc 64 32 (.c 0) (.add 32 (.x 64) (.x 60)) (.x 73),
  .mulx 32 (.a 6) (.c 0x27acdc4), .adc 64 32 (.c 0) (.x 69) (.x 75),
  .adc 64 32 (.c 0) (.add 32 (.add 32 (.x 82) (.add 32 (.x 70) (.x 66))) (.x 76)) (.x 79), .adc 64 32 (.x 84) (.x 5) (.x 80),
  .adc 64 32 (.x 86) (.x 21) (.c 0), .adc 64 32 (.x 88) (.x 35) (.c 0), .adc 64 32 (.x 90) (.x 49) (.c 0),
  .adc 64 32 (.x 92) (.x 63) (.c 0), .adc 64 32 (.x 94) (.x 77) (.c 0), .mulx 32 (.x 83) (.c 0xa3347857), .mulx 32 (.x 97) (.c 0x80000000),
  .mulx 32 (.x 97) (.c 0xc99), .adc 64 32 (.c 0) (.x 83) (.x 101), .adc 64 32 (.x 104) (.x 85) (.x 102), .adc 64 32 (.x 106) (.x 87) (.c 0),
  .adc 64 32 (.x 108) (.x 89) (.c 0), .adc 64 32 (.x 110) (.x 91) (.c 0), .adc 64 32 (.x 112) (.x 93) (.c 0),
  .adc 64 32 (.x 114) (.x 95) (.c 0), .adc 64 32 (.x 116) (.add 32 (.x 96) (.add 32 (.x 78) (.x 74))) (.x 99),
  .mulx 32 (.a 7) (.c 0x27acdc4), .adc 64 32 (.c 0) (.x 105) (.x 119), .adc 64 32 (.x 122) (.x 107) (.x 120),
  .adc 64 32 (.x 124) (.x 109) (.c 0), .adc 64 32 (.x 126) (.x 111) (.c 0), .adc 64 32 (.x 128) (.x 113) (.c 0),
  .adc 64 32 (.x 130) (.x 115) (.c 0), .adc 64 32 (.x 132) (.x 117) (.c 0), .mulx 32 (.x 121) (.c 0xa3347857),
  .mulx 32 (.x 135) (.c 0x80000000), .mulx 32 (.x 135) (.c 0xc99), .adc 64 32 (.c 0) (.x 121) (.x 139),
  .adc 64 32 (.x 142) (.x 123) (.x 140), .adc 64 32 (.x 144) (.x 125) (.c 0), .adc 64 32 (.x 146) (.x 127) (.c 0),
  .adc 64 32 (.x 148) (.x 129) (.c 0), .adc 64 32 (.x 150) (.x 131) (.c 0), .adc 64 32 (.x 152) (.x 133) (.c 0),
  .adc 64 32 (.x 154) (.add 32 (.x 134) (.add 32 (.x 118) (.x 100))) (.x 137), .set (.add 32 (.x 156) (.x 138)),
  .sbb 64 32 (.c 0) (.x 143) (.c 0xc99), .sbb 64 32 (.x 159) (.x 145) (.c 0), .sbb 64 32 (.x 161) (.x 147) (.c 0),
  .sbb 64 32 (.x 163) (.x 149) (.c 0), .sbb 64 32 (.x 165) (.x 151) (.c 0), .sbb 64 32 (.x 167) (.x 153) (.c 0),
  .sbb 64 32 (.x 169) (.x 155) (.c 0), .sbb 64 32 (.x 171) (.x 157) (.c 0x80000000), .sbb 64 32 (.x 173) (.c 0) (.c 0),
  .cmov 32 (.x 175) (.x 158) (.x 143), .cmov 32 (.x 175) (.x 160) (.x 145), .cmov 32 (.x 175) (.x 162) (.x 147),
  .cmov 32 (.x 175) (.x 164) (.x 149), .cmov 32 (.x 175) (.x 166) (.x 151), .cmov 32 (.x 175) (.x 168) (.x 153),
  .cmov 32 (.x 175) (.x 170) (.x 155), .cmov 32 (.x 175) (.x 172) (.x 157)], [176, 177, 178, 179, 180, 181, 182, 183]⟩

/-- `fiat_id_GostR3410_2001_CryptoPro_B_ParamSet_from_bytes`, lines 8416-8538. -/
def from_bytes : CProg := ⟨[
  .set (.shl 32 (.a 31) 24), .set (.shl 32 (.a 30) 16), .set (.shl 32 (.a 29) 8), .set (.a 28), .set (.shl 32 (.a 27) 24),
  .set (.shl 32 (.a 26) 16), .set (.shl 32 (.a 25) 8), .set (.a 24), .set (.shl 32 (.a 23) 24), .set (.shl 32 (.a 22) 16),
  .set (.shl 32 (.a 21) 8), .set (.a 20), .set (.shl 32 (.a 19) 24), .set (.shl 32 (.a 18) 16), .set (.shl 32 (.a 17) 8), .set (.a 16),
  .set (.shl 32 (.a 15) 24), .set (.shl 32 (.a 14) 16), .set (.shl 32 (.a 13) 8), .set (.a 12), .set (.shl 32 (.a 11) 24),
  .set (.shl 32 (.a 10) 16), .set (.shl 32 (.a 9) 8), .set (.a 8), .set (.shl 32 (.a 7) 24), .set (.shl 32 (.a 6) 16),
  .set (.shl 32 (.a 5) 8), .set (.a 4), .set (.shl 32 (.a 3) 24), .set (.shl 32 (.a 2) 16), .set (.shl 32 (.a 1) 8), .set (.a 0),
  .set (.add 32 (.x 31) (.x 32)), .set (.add 32 (.x 30) (.x 33)), .set (.add 32 (.x 29) (.x 34)), .set (.add 32 (.x 27) (.x 28)),
  .set (.add 32 (.x 26) (.x 36)), .set (.add 32 (.x 25) (.x 37)), .set (.add 32 (.x 23) (.x 24)), .set (.add 32 (.x 22) (.x 39)),
  .set (.add 32 (.x 21) (.x 40)), .set (.add 32 (.x 19) (.x 20)), .set (.add 32 (.x 18) (.x 42)), .set (.add 32 (.x 17) (.x 43)),
  .set (.add 32 (.x 15) (.x 16)), .set (.add 32 (.x 14) (.x 45)), .set (.add 32 (.x 13) (.x 46)), .set (.add 32 (.x 11) (.x 12)),
  .set (.add 32 (.x 10) (.x 48)), .set (.add 32 (.x 9) (.x 49)), .set (.add 32 (.x 7) (.x 8)), .set (.add 32 (.x 6) (.x 51)),
  .set (.add 32 (.x 5) (.x 52)), .set (.add 32 (.x 3) (.x 4)), .set (.add 32 (.x 2) (.x 54)), .set (.add 32 (.x 1) (.x 55))], [35, 38, 41, 44, 47, 50, 53, 56]⟩

/-- `fiat_id_GostR3410_2001_CryptoPro_B_ParamSet_to_bytes`, lines 8255-8401. -/
def to_bytes : CProg := ⟨[
  .set (.a 7), .set (.a 6), .set (.a 5), .set (.a 4), .set (.a 3), .set (.a 2), .set (.a 1), .set (.a 0),
  .set (.cast 8 (.and (.x 8) (.c 0xff))), .set (.shr (.x 8) 8), .set (.cast 8 (.and (.x 10) (.c 0xff))), .set (.shr (.x 10) 8),
  .set (.cast 8 (.and (.x 12) (.c 0xff))), .set (.cast 8 (.shr (.x 12) 8)), .set (.cast 8 (.and (.x 7) (.c 0xff))), .set (.shr (.x 7) 8),
  .set (.cast 8 (.and (.x 16) (.c 0xff))), .set (.shr (.x 16) 8), .set (.cast 8 (.and (.x 18) (.c 0xff))), .set (.cast 8 (.shr (.x 18) 8)),
  .set (.cast 8 (.and (.x 6) (.c 0xff))), .set (.shr (.x 6) 8), .set (.cast 8 (.and (.x 22) (.c 0xff))), .set (.shr (.x 22) 8),
  .set (.cast 8 (.and (.x 24) (.c 0xff))), .set (.cast 8 (.shr (.x 24) 8)), .set (.cast 8 (.and (.x 5) (.c 0xff))), .set (.shr (.x 5) 8),
  .set (.cast 8 (.and (.x 28) (.c 0xff))), .set (.shr (.x 28) 8), .set (.cast 8 (.and (.x 30) (.c 0xff))), .set (.cast 8 (.shr (.x 30) 8)),
  .set (.cast 8 (.and (.x 4) (.c 0xff))), .set (.shr (.x 4) 8), .set (.cast 8 (.and (.x 34) (.c 0xff))), .set (.shr (.x 34) 8),
  .set (.cast 8 (.and (.x 36) (.c 0xff))), .set (.cast 8 (.shr (.x 36) 8)), .set (.cast 8 (.and (.x 3) (.c 0xff))), .set (.shr (.x 3) 8),
  .set (.cast 8 (.and (.x 40) (.c 0xff))), .set (.shr (.x 40) 8), .set (.cast 8 (.and (.x 42) (.c 0xff))), .set (.cast 8 (.shr (.x 42) 8)),
  .set (.cast 8 (.and (.x 2) (.c 0xff))), .set (.shr (.x 2) 8), .set (.cast 8 (.and (.x 46) (.c 0xff))), .set (.shr (.x 46) 8),
  .set (.cast 8 (.and (.x 48) (.c 0xff))), .set (.cast 8 (.shr (.x 48) 8)), .set (.cast 8 (.and (.x 1) (.c 0xff))), .set (.shr (.x 1) 8),
  .set (.cast 8 (.and (.x 52) (.c 0xff))), .set (.shr (.x 52) 8), .set (.cast 8 (.and (.x 54) (.c 0xff))), .set (.cast 8 (.shr (.x 54) 8))], [9, 11, 13, 14, 15, 17, 19, 20, 21, 23, 25, 26, 27, 29, 31, 32, 33, 35, 37, 38, 39, 41, 43, 44, 45, 47, 49, 50, 51, 53, 55, 56]⟩

/-- `fiat_id_GostR3410_2001_CryptoPro_B_ParamSet_inv`, lines 8548-8567; the variables are 0 = t1, 0 = output, 1 = acc, 2 = t25, 3 = t23; a loop of multiplications is written out. -/
def inv : List InvStep := [.sq 1 0 1, .mul 2 0 1, .mul 2 2 1, .mul 2 2 1, .mul 2 2 1, .mul 2 2 1, .mul 2 2 1, .mul 2 2 1, .mul 2 2 1, .mul 2 2 1,
  .mul 2 2 1, .mul 3 2 1, .mul 2 3 1, .sq 1 0 1, .sq 1 1 247, .mul 1 1 2, .sq 1 1 7, .mul 0 1 3]

/-- The constants, lines: `const_one` 8571-8574, `const_b` 8576-8579; the file has no others. -/
def consts : FiatConsts where
  one := [0xfffff367, 0xffffffff, 0xffffffff, 0xffffffff, 0xffffffff, 0xffffffff, 0xffffffff, 0x7fffffff]
  a := [0, 0, 0, 0, 0, 0, 0, 0]
  b := [0xa9c5a084, 0x8dcc455a, 0x6cf438a8, 0x91ab42df, 0xeeac7d11, 0x8f8aa907, 0xf6285375, 0x3ce5d221]
  b3 := [0, 0, 0, 0, 0, 0, 0, 0]
  d := [0, 0, 0, 0, 0, 0, 0, 0]
  S := [0, 0, 0, 0, 0, 0, 0, 0]
  T := [0, 0, 0, 0, 0, 0, 0, 0]

/-- The functions of the file. -/
def file : FiatMont where
  mul := mul
  square := square
  add := add
  sub := sub
  opp := opp
  from_montgomery := from_montgomery
  to_montgomery := to_montgomery
  from_bytes := from_bytes
  to_bytes := to_bytes
  inv := inv
  limbs := 8
  consts := consts

/-- `lut_cmb`, lines 8582-11228. -/
def lut_data : List (List (AffW (List Nat))) := [
  [⟨[0xfffff367, 0xffffffff, 0xffffffff, 0xffffffff, 0xffffffff, 0xffffffff, 0xffffffff, 0x7fffffff], [0x570c7410, 0xdddc64b3, 0x13172887, 0xa7b09925, 0x4b6382db, 0xc4e5c4c, 0x124768de, 0x2763db0f]⟩,
   ⟨[0x8457d15d, 0xcd3e57b6, 0xbea56e83, 0xeb688f7f, 0x6a13c5ce, 0x235a123c, 0x50f57a6d, 0xcd7eb9d], [0x544c1965, 0xc0124e91, 0x62afa35e, 0x4d9c1729, 0x37c554, 0xf92f2c3, 0xa3f2665, 0x1d899868]⟩,
   ⟨[0x55f43eff, 0x9de4b213, 0x5c9e63f5, 0x2e110a42, 0x1ce5a6df, 0x9350a9c3, 0xa332315e, 0x377cbf0b], [0x20f0d1b5, 0x2805dd48, 0xf9723e5, 0x3b197566, 0x84b79937, 0xa1cca78c, 0x94d5e03d, 0x4f87bb1b]⟩,
   ⟨[0x5652c96f, 0xe428fbfb, 0xd261bdd1, 0x2e9a14d2, 0x7453b76a, 0x82d8296, 0x7ac87b02, 0x61ea580e], [0xcf368fdb, 0xa0f8c2ba, 0xd73b2a28, 0xdf093380, 0xea8fe5d2, 0xfa0928b2, 0x5f86d38a, 0x77a67492]⟩,
   ⟨[0x27670451, 0xdffab410, 0x1200ad3a, 0xebc3d017, 0x25f4f6c4, 0xf68324f3, 0x7d0eafd0, 0x4a24cd5f], [0xd3f6bd1c, 0xf8fbd489, 0x67b473de, 0xf6b56d5, 0xcacf0d6b, 0x6fb063de, 0x96dc574b, 0x27f2e7e9]⟩,
   ⟨[0x93937228, 0xa6a10645, 0xa9165bbb, 0xab7550b4, 0xcb0edbe8, 0xd682d4f1, 0x40e5ad8d, 0x2261fcec], [0xccbd4e18, 0x9f2119c6, 0xaab09697, 0x2fd094e9, 0xe700929e, 0x331713, 0x54338fe1, 0x6c5f2efe]⟩,
   ⟨[0x42fff78a, 0xd6314017, 0x2087e055, 0x38f23a91, 0x10ef1cac, 0xe30e809c, 0x2432ff74, 0x3bcb0a54], [0xb31509e6, 0x2b4b5b97, 0x3e54af47, 0x117fe9d7, 0x52f63aca, 0xe513c0be, 0xb1c80a6b, 0x41ed8ada]⟩,
   ⟨[0xe0a79fcd, 0x61a31837, 0x51d3de38, 0x8f742b57, 0x41354b55, 0x10635fcd, 0x946510be, 0x61f30c61], [0x6c416dac, 0x9183d677, 0x345431cb, 0x391b7b42, 0x7c254a8d, 0xe3d6f084, 0x19d320d8, 0x777e1f62]⟩,
   ⟨[0xf05bd85d, 0x90e633f, 0x240392ed, 0x546c41a0, 0x9f4139ca, 0x6bbcf15d, 0x7ffda5da, 0x73f5b657], [0xe0622a57, 0xbc04e353, 0x6e6414f4, 0xcbd8f01e, 0x8c3c0cc5, 0x53377c0b, 0xe0a14548, 0x6d302331]⟩,
   ⟨[0x3d6d456e, 0x235487f8, 0xb3fdcdcf, 0xbd92203d, 0xcffda977, 0x15b13d60, 0x31a1c4b5, 0x22dcb487], [0xc76ed9a2, 0xa367fb4e, 0xc0c86af4, 0x1e4f7956, 0x5b012ad7, 0x6f087c49, 0x4949b444, 0x33437e4a]⟩,
   ⟨[0xb7cddb38, 0x261b44fe, 0x419216ad, 0xdce2fe47, 0x9428657b, 0xa4ce17ff, 0xf8329049, 0x7ce64f48], [0x7289c114, 0x4ce74211, 0x8c212a23, 0xe622409, 0x2096719d, 0xcf75bf45, 0x7bdc1600, 0x6f553581]⟩,
   ⟨[0xb941cbc9, 0xe776aa0c, 0x951aaed3, 0x16d670e0, 0x4b1ec097, 0x79c019df, 0x12266d30, 0x635a66bb], [0x23aafd2, 0x30d843e, 0x6466108f, 0x10fb6157, 0x8d568d5, 0x93774bec, 0x4c1ee73, 0x29d27962]⟩,
   ⟨[0xe00bbc21, 0x6f0f4c2e, 0xa30ab92f, 0x9eb34c58, 0xae34908b, 0x2153d901, 0x4edc188f, 0x136a7e1f], [0x8bc45ee4, 0xf709bf5d, 0x4fad9a54, 0xea6984e4, 0xaf5140eb, 0xfc8e6f8a, 0x87756e47, 0x25ebf0de]⟩,
   ⟨[0x5b1d4b9f, 0x5c2a9726, 0x68e93fc7, 0xbe235dfd, 0x471a4ea0, 0x7766bdb9, 0xd9909cd9, 0x476d17cc], [0x7b398bc4, 0x4960e5b4, 0xf58f328, 0x909d0f17, 0x230ef508, 0x1abf7e02, 0xd29239c9, 0x6de6b3e1]⟩,
   ⟨[0x85a6dbe3, 0xccf0aa28, 0x823c606c, 0xa5e4b325, 0x15505fc6, 0xade98b2a, 0x2e20c3b, 0x4d4e7703], [0x4730df64, 0x24196417, 0xa914a59d, 0x3dd47817, 0xc4fdfd97, 0x4d7a317e, 0xbe12aa72, 0x3767e545]⟩,
   ⟨[0x165c7bf4, 0xa0c2a028, 0x36a0b483, 0xcd4da6ea, 0x3af53195, 0x1e1e6332, 0x8d77188f, 0x7a025e23], [0x8d2cef2, 0xb3cf03b9, 0x25a0afa6, 0x8fee9bb8, 0x88111895, 0x855340e0, 0x4fb8f8a3, 0x32e3ef01]⟩],
  [⟨[0xebf87807, 0x33ebe39d, 0xdbdeff76, 0xb048f96c, 0x342a3087, 0xa0496c3c, 0x50953679, 0x7623e192], [0x4b932390, 0x12f76711, 0xacece2f7, 0xf80851ea, 0xe5b280ea, 0xe447465b, 0x11115958, 0x412ade8]⟩,
   ⟨[0xb5eb0dc2, 0x982f1ac8, 0xbbbcc880, 0x8464e052, 0x1335d53, 0xc927b596, 0x4da4d80b, 0x4b0c6f5a], [0xe04783af, 0x101e1878, 0x41d8a690, 0x50458ffc, 0x1b77dfbf, 0x11499d88, 0x1f77a937, 0x46dc7d22]⟩,
   ⟨[0x620e52c0, 0xe9ad22ce, 0x4140f356, 0x990d6aa, 0xcbbeee5, 0xf6b2ef7, 0xead414c6, 0x2c67dc80], [0x23d4cd20, 0xe17182bc, 0xc13ddea9, 0xfc8fe3cb, 0x3babc06d, 0xd1e4a7b8, 0x71c06db7, 0x52ea05cc]⟩,
   ⟨[0xd022b5b, 0xf8abb770, 0x199dc689, 0x362b8059, 0x26bbdec8, 0x5d887a4d, 0xf7fc2a01, 0x7835f183], [0xde99df34, 0xeede12f5, 0xa3082301, 0xbe952638, 0x4c35a162, 0x829fdf80, 0xc2b9645e, 0x205a2252]⟩,
   ⟨[0x1356e14c, 0xde284da9, 0xc37415fe, 0xe40cefe0, 0x47f6016e, 0x62be93e9, 0x5dbfe2f6, 0x2dd98904], [0x2ebc70f9, 0x195b0e98, 0xf01f4d43, 0x7e52840d, 0x4b1f6ab4, 0x1afb1fdf, 0x20b3e491, 0x50aabb8]⟩,
   ⟨[0xc645dad4, 0xc59e1edb, 0x565a286d, 0x5af6b2dc, 0x13076366, 0xc399a48a, 0x4ac0e5b9, 0x19f4881f], [0xcd5ac339, 0xc07d02a1, 0xed628a55, 0x18fbd088, 0xffa4788e, 0x2d33c6f4, 0xccb832e7, 0x52e9ae42]⟩,
   ⟨[0x4e5e934e, 0xa47091ae, 0x91ced3c6, 0x2542ce13, 0x8fc47857, 0xdde01fd5, 0x4304eaa9, 0x6ba6e569], [0xe24091a9, 0x2ff0278b, 0x782bbce0, 0xb895f0ab, 0xab8b8828, 0xa80ccc97, 0x68a7d8fe, 0x6a54b961]⟩,
   ⟨[0xbac4581a, 0x15e1f5ad, 0xd4baa751, 0x91620ef0, 0xc7273c4d, 0x4e65731f, 0x7eee33b5, 0x14b166cb], [0x3cd06080, 0x7b0effa5, 0x8cf95ff9, 0x4491156a, 0xe2258574, 0xc8c64c39, 0x13315ce9, 0x3d48da9d]⟩,
   ⟨[0x99866ce5, 0x97a098a3, 0x23a1167, 0xf4ccdb40, 0xf8094782, 0x4bb32981, 0xc7d5fd13, 0x7342cc98], [0x78b99d4e, 0x3c1c5b18, 0xf4762ac9, 0x1277668f, 0x6ae50e4f, 0x612431d7, 0x36f9071c, 0x36c174e0]⟩,
   ⟨[0x9327ba7f, 0x39194e87, 0x7237fa1a, 0xc4d251ff, 0x2ba5eb8d, 0x55ed3cd4, 0xba590188, 0x263af07], [0xefa82cf3, 0xb4853127, 0x2b8e761d, 0x2cc2d220, 0x2722b490, 0x4582b81e, 0x610aa621, 0x1da7680a]⟩,
   ⟨[0x30d297d4, 0x6a669ee, 0xe133d393, 0xc336b048, 0x93b7b41b, 0xb733a2c4, 0xc7a8e721, 0x427cc233], [0x2867bb00, 0x727c14f1, 0xa736035e, 0x756f4c7a, 0x26327a22, 0xb72a3ede, 0x77f73f28, 0x4aede2bb]⟩,
   ⟨[0xa7282ed0, 0xc8a3612f, 0xb0150579, 0xe4ad8b40, 0xc3fee4b, 0xab1de11d, 0x33b31f23, 0x613aad48], [0x5c91bd21, 0xe74ab856, 0x7953d695, 0x49917735, 0x1a53d74f, 0x3831eb60, 0x54deb1a6, 0x245977a0]⟩,
   ⟨[0xfffc1468, 0x15972e4d, 0x141dc24c, 0xa758d9cb, 0xed8694c5, 0x5e76fcdf, 0x69b7a5e, 0x5f9daf35], [0x501b5415, 0xfe50fce4, 0x58cfde50, 0x6442cf67, 0x38e5f4d0, 0xa89c6db4, 0xf5d4fefc, 0x21f012db]⟩,
   ⟨[0x98cb9a81, 0x2a1170ad, 0x36c5e45, 0x934bd9d5, 0xca5095b1, 0x27df152e, 0xcceee508, 0x682698db], [0xb973fb5f, 0x1f4fe3a2, 0x792c7d4d, 0xd33cbebe, 0xe7b33a8f, 0x99d37961, 0x7b6d015d, 0x46b8993b]⟩,
   ⟨[0x6fbac8f7, 0x93a3809b, 0x97c55dc4, 0x84861bf0, 0x15bb65e3, 0xa6f89eea, 0xa6e531d1, 0x66ae1c5d], [0xfd83daea, 0x643a14fc, 0xc585947b, 0xa7a46d0d, 0x4fba1274, 0xfa20cf07, 0x93578a7d, 0x5999ed7b]⟩,
   ⟨[0x78e7c6ce, 0x36c8b6ed, 0x5e325f44, 0x6d400ca5, 0x20b7aa5c, 0xc6ae09b3, 0x89eabc17, 0x1af261c1], [0xb9e778e4, 0x64d6ffbb, 0x7fc64beb, 0x1c9e223e, 0x5d75e6c0, 0x4d68b520, 0x76677a06, 0x5a72b1d9]⟩],
  [⟨[0x6f08bb17, 0x62db6640, 0xae75bb73, 0xc34f29df, 0x7dbd4851, 0xd501293d, 0xad1f604b, 0x5eaa94ca], [0x94408a8, 0x39cfe9d1, 0xe8a476f2, 0xc0f6544c, 0xa42d7607, 0x9f6308b6, 0xd727018f, 0x17f82949]⟩,
   ⟨[0x9c4c4bd2, 0xc44453cd, 0xebd0b947, 0xa895e247, 0xaebc27f4, 0xaeb7afc, 0xf04abfac, 0x2472fd08], [0x73e6e994, 0x319ec67d, 0x798c5fc0, 0xd6533e4c, 0x3fb9aa89, 0xf4c3b24d, 0xa3b376b, 0x3ec58082]⟩,
   ⟨[0x144acf7a, 0x79732d6f, 0x911342dd, 0xfdd630c3, 0x4a630649, 0xc577c4b3, 0xbba999d6, 0x14956a17], [0xa435a559, 0x523d3cc8, 0xacda8861, 0x488dc690, 0xf051c69a, 0x4cf70928, 0x955394cb, 0x2d98d573]⟩,
   ⟨[0x23a4b840, 0xedb7ba2a, 0xf6c2d93b, 0x725ec496, 0x8833bb3f, 0xc94818b, 0xb142b12a, 0x51281a31], [0x659eda83, 0x2a8a5706, 0x7f9d6877, 0x3098f750, 0x2171f69f, 0x87ad0fdf, 0x1a6f2f28, 0x6b7067c3]⟩,
   ⟨[0x12b1e36f, 0x3b521074, 0xf81e4733, 0x727a2432, 0x53f2cbbd, 0xb75a2f35, 0x54960eb0, 0x46de9338], [0xe561d908, 0xac5344f8, 0x12c67430, 0x4bd40ecb, 0xef499f97, 0x1698fd62, 0x6ae9fbd1, 0x29ebd7ae]⟩,
   ⟨[0x1ec8110d, 0x9dec249b, 0xfd2f5c39, 0x2d19053a, 0xe01522df, 0xb1189807, 0xc1424c77, 0x24a04c16], [0x24f72226, 0xa4fc7c7d, 0xa8322501, 0x763405fb, 0x18f015e0, 0xc5443c9a, 0xc55d6cea, 0x6deda19b]⟩,
   ⟨[0x9eae2ff9, 0x4ef30976, 0x5741b21b, 0x2549b7f2, 0x3bc23f01, 0x859acd10, 0xbf5fb0d7, 0x5c0358f], [0xfb6ab34c, 0x85e53aa8, 0x8fd2fd20, 0x8daaaa69, 0x16096fc9, 0xbe6d4d34, 0xf8b8b831, 0x27572c88]⟩,
   ⟨[0x47d56a25, 0xadb98dc5, 0x8b8e1dc6, 0xcc76432, 0xbe48c4a1, 0x32c738e, 0x94fc9cf0, 0x31372dad], [0x78a7dcb2, 0x8e646a0c, 0x6ecd9885, 0xa32f3e9c, 0x6a3ad963, 0x280bb4ad, 0x817d4327, 0x7dee1bc4]⟩,
   ⟨[0xf8a7c1e1, 0x1ae6a27b, 0xcbc527c7, 0x558c652f, 0xa65056f6, 0x4084b56e, 0x6d4c838b, 0x3fd45459], [0x56de792a, 0xf5c15afd, 0x88959282, 0xf656faa4, 0x1c07d63f, 0x7f0d8ef4, 0xcd841acc, 0x44efff7d]⟩,
   ⟨[0x8d3695d8, 0xac28f2a6, 0x3f91e781, 0x94959eb8, 0xfedd6e1f, 0x7693fff7, 0xa9a699ef, 0x2512e6e1], [0x7955fab7, 0x823400eb, 0x94924c08, 0xcf109ef9, 0x3a709f32, 0x12e08779, 0x9cc6484c, 0x187d0413]⟩,
   ⟨[0xebde477f, 0xd3932afb, 0x44538d8a, 0x9d5a5422, 0x166a87af, 0x40b0b159, 0x41d5e078, 0x31294b3d], [0xe8c48222, 0x6c49c853, 0xdcd0d611, 0x8fbe6620, 0xf611007b, 0x9ddc7ee2, 0xe6652172, 0x12289a60]⟩,
   ⟨[0xdacf80f7, 0x8b85475b, 0x9b5caef2, 0xadbab353, 0x8d2a7707, 0x7c4090a3, 0xdab97830, 0x271fa4f1], [0x53173e04, 0x141b7252, 0x6d0b127, 0x4b483d64, 0x63a7af8, 0x8fd15bcf, 0xe580f34c, 0x59b19eaf]⟩,
   ⟨[0x9c0d79b6, 0xa7eea8c4, 0xb9185109, 0x766fa113, 0x4642cc64, 0xb42d74f3, 0xbb817476, 0x51d0127b], [0x8ab71448, 0x6da097f5, 0xf95ad0c7, 0x145872e5, 0xf1759436, 0xb7e934f3, 0x3160ed1f, 0x4ea883f9]⟩,
   ⟨[0xceabae1, 0x30dc39b7, 0xa606d766, 0x49ec5ee8, 0x97fc46af, 0x230e2762, 0x5be79b8d, 0x79a531f], [0xef08c93f, 0x48253bc2, 0xf124d043, 0x2d32af02, 0xaf34d231, 0x85796d0d, 0x15f8cecd, 0x6a6205c]⟩,
   ⟨[0x47b00d1a, 0x1fa77afd, 0xe48ce97a, 0x429717b0, 0x57433697, 0x38fef11d, 0x7d426687, 0x3e91bed6], [0x2ab4bfe9, 0x95919bf7, 0x97096b3a, 0x7a3f33fc, 0x3dd8c82e, 0xe0bbac3, 0xf8edb675, 0x2ce9efcb]⟩,
   ⟨[0x43d8b81d, 0x2d44e998, 0x6d68a95c, 0x8abff419, 0x3b2a18dd, 0x639000a0, 0x871e3ed3, 0x7cd15413], [0x148f0378, 0xc059855b, 0x616b62bf, 0x50147459, 0x4d461110, 0x53b699af, 0xec29e48d, 0x6a0d0ec7]⟩],
  [⟨[0x15797f35, 0x51733221, 0x4bbe6644, 0x2f298214, 0x4a5ef621, 0x7bc8fec6, 0x7f472f05, 0x3d2be785], [0x2765c427, 0xa1c3a1c9, 0x24155acf, 0xbacf08fe, 0x9d229948, 0xa9cc1a17, 0x27039fd8, 0x1918c97f]⟩,
   ⟨[0x7843ff7b, 0x2cf39338, 0x258997f2, 0x5fcbde65, 0x165a98a3, 0x3980bf90, 0xbf9458e5, 0x2e80607d], [0x7019165c, 0x5f646eb6, 0xdde34205, 0xfa091fbe, 0x69267ae3, 0x695348b6, 0xabc22051, 0x385b0b6a]⟩,
   ⟨[0xb537f78c, 0x3cae0756, 0x8be30367, 0x3012a958, 0x981a22c3, 0x32d26c06, 0x2950e833, 0x7d091fab], [0x797acaaf, 0xd8e1b638, 0x49f2ea10, 0xe7021c85, 0x17a7af3b, 0xca382bc1, 0xbb809976, 0x8a5a81d]⟩,
   ⟨[0x4287bb97, 0xf499fd, 0xdaa9daf2, 0xfb6791ca, 0x57b2b98, 0x9a19e4f3, 0xc53c0223, 0x6968d2ff], [0xce88509c, 0xdc741ef5, 0x306a0570, 0x38ae355d, 0xc23af46b, 0xfecf6589, 0x6ad48836, 0x6c0e6ed1]⟩,
   ⟨[0xe363495d, 0x22b68698, 0x39af2be3, 0x120005d0, 0xbf4ba69, 0xe37b1965, 0x26e64ae7, 0x3b416e93], [0xdeac5c59, 0xfaed5088, 0xeb2518a5, 0x67436acc, 0x91fa788d, 0x636b52f8, 0x655153d1, 0x10b2a57a]⟩,
   ⟨[0x833a984c, 0xb18060a7, 0x74833bad, 0x7ef83746, 0xc5b3bc88, 0xcbfaf742, 0xa1a7f135, 0x7981dc36], [0x5d076280, 0xe70ccafa, 0x7009d85, 0xeba80eb7, 0x73778de2, 0x7d99d24c, 0xa7262d50, 0x1efee1bb]⟩,
   ⟨[0x6a7cab32, 0xbc47f4a2, 0xdd6e48a3, 0x53f290a7, 0x92f35f9e, 0x82257a1b, 0x8bb0aab0, 0x73d17b31], [0xc2dffe96, 0xbbd4522a, 0xe6eb0501, 0x9c37daa1, 0x453db6be, 0xf4d4d568, 0x642ad2e4, 0x2868cbf5]⟩,
   ⟨[0xabe30c59, 0x40a988e6, 0x93057dec, 0x5aded929, 0xdacd37b0, 0x18fd7e04, 0x8228aca5, 0x6e3fb81e], [0x4104b0c9, 0xff3eefe6, 0x31ca120a, 0xd7dd05e7, 0xd01c1cf8, 0xafd3cf1c, 0x831bc4e9, 0x4d0cd264]⟩,
   ⟨[0x82cac14a, 0x2641b321, 0x70990e6c, 0x34eb1495, 0xa1c74ca6, 0x3e5af58f, 0x616b7a2d, 0x11b50821], [0xc4fa9719, 0x891636e3, 0x107dd719, 0xaee84c27, 0xc1872e75, 0xa2b0d83e, 0x7383069e, 0x7dd62cbc]⟩,
   ⟨[0xc81b7e15, 0xeba4a024, 0x4516070, 0x1cc37e08, 0xf90ce59d, 0xef1f0401, 0xe062e133, 0x3b4259d5], [0xcf2ca1dd, 0x87a1dbfa, 0x61fd1afb, 0xcfbfb15f, 0xecf4c7ba, 0xfbfd9899, 0x2725fa50, 0x57c84cee]⟩,
   ⟨[0xefa6e3d0, 0x8b0b7414, 0xb3d04224, 0xd9725c5e, 0x8a91371e, 0x670e6c50, 0x9b25bd3b, 0x4d130467], [0x5cf18d4f, 0x18d77d15, 0x1ca09677, 0xef80dc41, 0xb9a05cf9, 0x6f3a961b, 0x7c1433a4, 0xbb8a518]⟩,
   ⟨[0xb33fcf05, 0xac0cf52a, 0x1cdc7782, 0xad03692f, 0xaa02b77e, 0xb345bae6, 0x456fcfa9, 0x5096694], [0x25d4cf32, 0xa8984448, 0x15184188, 0xd76393e3, 0xea069bed, 0x7d4a8c0c, 0x11e18347, 0x4d22268d]⟩,
   ⟨[0x3cb3c0f1, 0xc2a0bb75, 0x8eba58c6, 0x61f4ec4c, 0xdfc4a903, 0x5d3f0d44, 0xf9b6f79a, 0xb6ce81b], [0x94e49623, 0xf694a44a, 0x1bdf75e0, 0xcfcbb7e1, 0xe0337e13, 0x20cee1bd, 0xdff02e18, 0x694ea40b]⟩,
   ⟨[0x78d1dc2e, 0xc21be0fa, 0xed0e49e0, 0x8b4d9a5, 0x827f0b4c, 0x676731ab, 0xebab5894, 0x674ecc79], [0x39abb148, 0xb29bd0d4, 0x2378a63a, 0x8207a8f8, 0x1e4c29c2, 0xe36a549d, 0x3f1c255b, 0x380d48de]⟩,
   ⟨[0xe5f2c87e, 0x6ab6f887, 0xa01aec86, 0xe92c7345, 0x8660c26f, 0x697f4520, 0x9b58015b, 0x4f2488e0], [0xbb41900c, 0xb2410b3e, 0xbe1a8a39, 0x31267500, 0xb9140554, 0xa7c9997c, 0x1cd41524, 0x335b1806]⟩,
   ⟨[0x14873270, 0xb836fd9f, 0xe3243ec5, 0x1ae0f512, 0x83b9ab74, 0xa743e304, 0x3a5758c7, 0x1569c30d], [0x9e8f9e52, 0x3cef9a, 0x8c22119e, 0x557afb4a, 0xf223a966, 0x66f2487e, 0xa519378f, 0x7fa00273]⟩],
  [⟨[0x7b08c1c4, 0x812c024f, 0xadba8ad9, 0xc6017986, 0x601bd82, 0x59c7b16c, 0xcfa5622, 0x41b6a45c], [0x83c1e3e8, 0x353a67d5, 0xc65f5059, 0x9a83438e, 0x86eea346, 0x99950377, 0x330d2570, 0x74e2f4bd]⟩,
   ⟨[0xb4a8bda8, 0xdb8e53c1, 0x2c003c77, 0xa850047e, 0x1b018831, 0xffd48a73, 0x8b325062, 0x24f96cb6], [0xcd2b821b, 0x3779ca4d, 0xc3159ce7, 0xc2afbf6e, 0x10f18de9, 0x8a580b1a, 0x8cf75334, 0x37043d0d]⟩,
   ⟨[0xecccf2e8, 0x451dcda, 0x752a134f, 0xcf7a3ad9, 0xfbdae56c, 0xd5754596, 0xf4cdcf6a, 0x15237d73], [0xeca37967, 0x1df5912c, 0x336cd97e, 0x60934339, 0x434ddc01, 0xa4e523fe, 0x79dbe24c, 0x24e81dc6]⟩,
   ⟨[0xc83b2b7c, 0x28f0d73b, 0x7b5de1aa, 0x45be220f, 0xb136a877, 0x1b785230, 0xaeff115b, 0x5a94122a], [0x8e598998, 0xef895f0c, 0xf4c622c3, 0xcee32b3e, 0xb256cfd0, 0x2d080b1d, 0x21075e15, 0x672686d6]⟩,
   ⟨[0x9f9f26fe, 0xe85fb575, 0x93a7966e, 0x1de57b83, 0xdd8cb696, 0xa9948de8, 0x758e685d, 0x226c95a6], [0x3729c663, 0x38b0753b, 0x410e4884, 0xd46ca4d9, 0x77516fa4, 0x1d6fa5f9, 0x696cfafc, 0x9a0fdb8]⟩,
   ⟨[0xcc7f6fd8, 0xd1dad8e9, 0x22195a2, 0x7bb9f606, 0x223a9346, 0x1b997396, 0x88dcfb04, 0x6acd6f7c], [0x3ac52f65, 0x9029e5eb, 0x935a39de, 0xed1d7a0f, 0x538d8914, 0xf1d58c3a, 0xb36b8342, 0x19153569]⟩,
   ⟨[0xe2502156, 0xff600354, 0x733da5ec, 0xe386a20f, 0x9d24d11d, 0xd6fbcbbb, 0xb06c843, 0xb57498c], [0x7a834667, 0x98f1fff8, 0xc7df05f5, 0x4aeb8788, 0xc2681da4, 0x8cfa3b01, 0x2fa2faea, 0x1aecc0e8]⟩,
   ⟨[0x94c5cbc5, 0x38278865, 0x41a755a, 0x9ada7cab, 0x8d891640, 0xb38f762a, 0xad88f0, 0x28f6fbb2], [0x3709cd6d, 0x3f9629e3, 0x4912f483, 0xd2435a55, 0xdff5ab69, 0x305bea64, 0x663bb0d9, 0x4d29041a]⟩,
   ⟨[0xe2fd9338, 0xdc4bc9d4, 0xba7938fc, 0x5389390d, 0xf329b218, 0xc42b812d, 0xfa9f1956, 0x5e809b5e], [0x523d74c3, 0xe2a89baa, 0x78cba7b5, 0x97cd9ffb, 0x5b07bcd2, 0x25f95301, 0x2064bb3a, 0x4042c705]⟩,
   ⟨[0x28d53bf9, 0xd8b6ada4, 0xa4210f2d, 0x5e922ca5, 0xf05a1629, 0x9501f46a, 0xc6cd71cd, 0x28094e54], [0x811285ad, 0x8d5484d5, 0x1593ee86, 0xfb2168f4, 0xac54a41d, 0x693d3b32, 0x28a5425c, 0x3dafec07]⟩,
   ⟨[0xd12837a8, 0xe4cf0d0, 0xcf5273bb, 0x19fa2cc9, 0x116a20c4, 0x56346bae, 0xe436a36, 0x4f3597fe], [0xe8eb1b85, 0x459d3ffb, 0x5ae04130, 0x7c718672, 0x60302740, 0xa37c2586, 0x913072d8, 0x2871af37]⟩,
   ⟨[0x8590319d, 0xd77249b7, 0xeb06b813, 0x73f7a684, 0x71d1d580, 0x4c9dc5b9, 0x5a50a95b, 0x7c91a9f5], [0x475f161, 0x4f8f2e89, 0x538b7f94, 0xf34ec1dd, 0xd46f2575, 0xb8ff6c65, 0x64433c80, 0x79a2ce2c]⟩,
   ⟨[0x1aeb7039, 0x38448a53, 0x417189ec, 0xf5ec03f7, 0xeb92ff2b, 0xfa095ca1, 0xe4fcaedb, 0x4612f720], [0xf30aae0e, 0xc945e966, 0x340a7a1d, 0xf61cfe85, 0xe42d7920, 0xa2560bc6, 0xa692e9c7, 0x7d7b321]⟩,
   ⟨[0x592c60c5, 0xb9c26307, 0xf59d966, 0xcecbc6c3, 0x5459d89e, 0x8ba31fd6, 0x47c7fae8, 0x1a4af6b1], [0xb431d720, 0x66487766, 0x5108b845, 0x5d597309, 0xca8e6e0d, 0xa3b94fd7, 0x55c6a48d, 0x639519e3]⟩,
   ⟨[0x52dc195, 0xad3ee167, 0x947816b, 0x4df2bfc7, 0xabadbb3c, 0x5d463469, 0xc33d4f96, 0x6f7aa885], [0xfe06133c, 0x3dd27536, 0x2796e7ed, 0x27a557b2, 0x3d314a4f, 0x1117ccb7, 0x23968946, 0x6f0c0ae0]⟩,
   ⟨[0xe2110c00, 0xa3d4dae, 0x4c633a23, 0x389d3a5, 0x83aec172, 0xe167bdfa, 0xfb38e8f1, 0x67070ce], [0x4df220c5, 0x41137367, 0x59c39f05, 0xb255e5d3, 0x43c75b3, 0xe437984e, 0x6a22994a, 0x1dcd771]⟩],
  [⟨[0x4c6fddcf, 0xd2880df2, 0x8a00d80f, 0x76a28ff2, 0x792f82c, 0x257cb1f8, 0x605703ea, 0x7938abc], [0x5f61b0fe, 0xd99f0ac9, 0x8ec15433, 0x440dc63c, 0x86ab5ddb, 0xd9bddff1, 0x744755ea, 0x3b8875dc]⟩,
   ⟨[0x4938c9fb, 0x1d90440, 0x8db6a890, 0x900657fd, 0xf60a173a, 0xdcc5068a, 0x857c7b2a, 0x5f3eb242], [0xa4f0eb9e, 0x634240bd, 0x44e85c70, 0xacdda6c4, 0xaabe4c5, 0x753f02ab, 0xc1d034e1, 0x33d89d21]⟩,
   ⟨[0x1279b25b, 0x4596b52d, 0xa48014ae, 0x494669d9, 0x4fd22150, 0x9a26b6fc, 0xf07d5a3f, 0x394de0bb], [0x634c1733, 0x12dfe5a6, 0x1ebc5177, 0x33ec21d2, 0x527514cc, 0x454b4930, 0x41405532, 0x7f23bd0f]⟩,
   ⟨[0xbac9dd30, 0xb2879e7f, 0x6ce7672, 0x259bb1cb, 0xbb97be10, 0x201db42e, 0x2ea35a8e, 0x112d6079], [0x6b3b9933, 0x7cc756d4, 0x781ce4dd, 0x4bd24810, 0x8733247e, 0x53cb4e38, 0x9da66787, 0x47bd6a30]⟩,
   ⟨[0xba600c8e, 0x8a700953, 0xcf388c0d, 0xd466f11d, 0xe4a17a8e, 0xd485f341, 0x234fc16d, 0x63278918], [0xbb82046d, 0xf4dda875, 0x2945470a, 0xd61e4e58, 0x6d0f8976, 0xcdb6c5bd, 0x10a004a2, 0x44cd9e4d]⟩,
   ⟨[0x49c4aa6e, 0x595cd942, 0x3de400c8, 0xe5a90136, 0x9dd12d9e, 0x4bced3bd, 0x78e3d5e4, 0x3700cf92], [0x75a32d1a, 0xecfff498, 0x3c4a54b2, 0xc28dde37, 0x993cae6d, 0x8dc22352, 0x52ed7019, 0x46cb5408]⟩,
   ⟨[0xea94e7bf, 0x71ffaed0, 0xd5ae6185, 0xc0817d2c, 0x5cf23687, 0x7b72b8b9, 0x60a450e1, 0x61dde599], [0xd13870e6, 0x17cf0b10, 0x5f2930bb, 0x7d08e1fb, 0x83807c14, 0x8d0f4f55, 0x6e6db701, 0x61ebfc1a]⟩,
   ⟨[0xfcafe68, 0x247a3f65, 0x7ac2a25e, 0x57548035, 0x3cd0fe06, 0xb7466ca5, 0xbcc31ab3, 0x7b0d8b36], [0xa6d4358c, 0x2faaf49c, 0x3e9b4e31, 0xd9e5e2fe, 0xf6086336, 0xa6a859a0, 0xa9c19f84, 0xc2a442a]⟩,
   ⟨[0x3bc0ad7d, 0x66fea841, 0x32c9158e, 0xcd3a546c, 0x8fe1df7f, 0xacd2ee7f, 0xebe9621e, 0x10f58c0a], [0x478b667d, 0x80047c54, 0x89870dce, 0x9eae5faa, 0x520a005, 0xc05beb33, 0x352ac891, 0x2cfbc921]⟩,
   ⟨[0x632f6d73, 0x6842e6b8, 0x2b9ffaea, 0x6f2b5724, 0x9341d2fa, 0x7accc982, 0x88809b65, 0x6dad9a11], [0xb6cc2240, 0x3411850c, 0xb64937e1, 0x8547bcaf, 0x6978f636, 0x49aedd5f, 0x85a53d2a, 0x38f59752]⟩,
   ⟨[0xf5f5a2d0, 0x5c38eb49, 0xe3bf779c, 0xe028121b, 0xa783d5e3, 0x649997c8, 0x2c06cc0f, 0x4de984a], [0xa49d6239, 0x52c834b0, 0x628413ac, 0x70a1b09, 0xa8624a1e, 0x2fbe0ca5, 0x268d930a, 0x687d93c3]⟩,
   ⟨[0x314c47a4, 0xc7cd6805, 0xce7a9a6d, 0x8bd0c630, 0x34f727ba, 0xcdb2dad5, 0x25db0189, 0x7814c414], [0x7dd9caee, 0xd7f9c5dc, 0x798690e4, 0xda6eacc8, 0x6b675e01, 0x705794e3, 0x75c5ec38, 0x4a31d714]⟩,
   ⟨[0x519d5f2, 0xc162a3ea, 0x2958fabf, 0x92146a78, 0x6cb31eb0, 0x1e63cbe4, 0xfbc5ad0f, 0x77ce5aad], [0x32605dc6, 0x3631e470, 0x43413dd3, 0xc7d1c72f, 0xdf6b7c9, 0x171a3794, 0x2b5a08bc, 0x6d711743]⟩,
   ⟨[0x509ef0f2, 0xddc8057d, 0x6cabb486, 0x5c0b92b, 0x4244d919, 0xd49692b6, 0xd297f56e, 0x4e181744], [0xf8cbb897, 0x902f6e73, 0x56d01382, 0xc3b21fe1, 0x46890f6d, 0xa858abe1, 0x506858af, 0x46b5e2c9]⟩,
   ⟨[0xf4dede56, 0x30441281, 0xa195aede, 0x13f06fbb, 0x2fdd3bff, 0xad5f575b, 0x32acb590, 0x680f656d], [0xe3faaba7, 0xfb60a8e1, 0x89a14827, 0xc8fbc1e4, 0xa8616136, 0x5835453f, 0xe6f4926f, 0x2826a47]⟩,
   ⟨[0x74f32180, 0xaf4319a1, 0x6c2c1712, 0x4c9fdd16, 0xac7e14a7, 0x59ca4fd4, 0xabbd4ea4, 0x7aa6e2f], [0xfe9f121f, 0xb4bd441c, 0xcda452c5, 0xdebb4356, 0x51c9f451, 0xc29f1cfa, 0x83f598d8, 0x7e1eef4c]⟩],
  [⟨[0x5014135f, 0xfc41a321, 0x3eeadf3f, 0xbe95f9ba, 0x3203a540, 0x54b1212, 0x3721c745, 0x6dd2fd17], [0x5a682b59, 0xf86b8578, 0xbe801f7d, 0x872aa481, 0x14f865f2, 0x64c1600c, 0x25365449, 0x4bdd47aa]⟩,
   ⟨[0xf3a3469f, 0xc96a964c, 0x9f7da0e3, 0x273c5c85, 0x4c1a9dcd, 0x88edc4ac, 0xb48e4caa, 0x77623444], [0x31581ff7, 0x7af34a9c, 0xbb57f7cc, 0x23328c37, 0x8b7c86ab, 0xe920d8e9, 0x9de6d64c, 0x1c7a7a40]⟩,
   ⟨[0x79b9451c, 0xbcdcd22, 0x58f5241b, 0x2920b435, 0x9b33ef3d, 0xc24df715, 0xf2600224, 0x15252c5b], [0x9a9160b6, 0xf9c8d8a6, 0xa6b9a6b8, 0x3186f2f9, 0xa377e98a, 0xc37267dc, 0x37957189, 0x71319a0a]⟩,
   ⟨[0x6baf6ae5, 0x48e5033f, 0xa460fce9, 0x72379b2e, 0xf3d2fa46, 0xfc753d47, 0xed9edf72, 0x3b67685a], [0xf712500f, 0x1608e304, 0x9ee1b42a, 0xdfa358a4, 0x34b8345c, 0xe7a4b376, 0x6753c17, 0x7d0e0bf3]⟩,
   ⟨[0x8fa62042, 0xa88526a6, 0x393006bd, 0xd6f32bb5, 0xa5dd5045, 0x14804978, 0xbf0c5e13, 0x34c02662], [0x376e3e3d, 0xf9beebf9, 0x5923dc61, 0xfd774041, 0xf9735cf5, 0xfe77bdfa, 0x4077cfcc, 0x2e476e22]⟩,
   ⟨[0x9ba457ef, 0xab8e52eb, 0xabed212, 0x95f6c5fe, 0x386620ff, 0x7204b1a6, 0xdd180719, 0x463b7474], [0xf991d8ee, 0x7f7d27aa, 0x8f67722d, 0xa7eb1085, 0xe331480a, 0x78d7095b, 0x66a1c8fa, 0x1dcc8c12]⟩,
   ⟨[0x3e6a04c1, 0xd4c39c18, 0xb598abee, 0x73db1c4d, 0xdf4a7d42, 0x381f9780, 0x52f860cd, 0x3c19a231], [0x3ef00740, 0x7ec89934, 0xf37fe0d5, 0x50867788, 0x43e84d4a, 0x502d870b, 0x8f744749, 0x5f8a8413]⟩,
   ⟨[0xfaeccfe4, 0x1c41aaad, 0x21461f41, 0xc324f3b9, 0x4e90c0ab, 0x165aba3f, 0x5f88e7d3, 0x2f96ced5], [0xc0e52768, 0x8ca366fc, 0xa55249a7, 0x6cca017c, 0xf7ebca2, 0x41ed002f, 0xa2baf655, 0xc33b371]⟩,
   ⟨[0x62b928ce, 0x3b94cd9c, 0x39729345, 0x5bc43a6a, 0xc47d223c, 0x44d0c0f, 0xb0493367, 0x3b64b38d], [0xeb74a6c2, 0x82afb645, 0xd876d71c, 0xcb01e22, 0x29c6bcd0, 0xce2a7dcc, 0xdfd644ec, 0x4753de1c]⟩,
   ⟨[0x62188792, 0xe69fc903, 0x4914328b, 0xd91db9bc, 0x3b68f8d0, 0x44953f4d, 0x654b283, 0x2950435d], [0xbe88f609, 0xe599a4ae, 0x90f5d10e, 0xf801cd90, 0xd4f1d3d9, 0xab78db1, 0xc0f71ecb, 0x3ed9666a]⟩,
   ⟨[0xe1e73e59, 0x6046a505, 0xf3b5c2e0, 0x8723a3ec, 0xe22c1555, 0x4bd95bf6, 0x6da421e9, 0x50dc33db], [0xf1b01327, 0xcfb51e95, 0x199a8765, 0xe7013f2a, 0x77504b0b, 0xf486fea7, 0xf9ba61c6, 0x2af0f7e9]⟩,
   ⟨[0xbe00b841, 0x9dba1a02, 0x8bed5f08, 0x488ba455, 0x67f1040e, 0xf6814a64, 0xdc252336, 0x23ac4762], [0xf0ed0577, 0x25040f02, 0xc6ffae9c, 0x65209b22, 0x485aa0ac, 0xcc441a8c, 0x59d63a8a, 0x10dfacb6]⟩,
   ⟨[0xc7d86b28, 0xbf4a0569, 0xdbda9da4, 0x5cda94c4, 0x69058335, 0x2235c4ce, 0xd30c89e2, 0x68fa5e7c], [0x59097b5b, 0xbb286d39, 0x9a20ba7e, 0x87da80bb, 0x56f47e54, 0x85ef865e, 0x74abfa5b, 0x5bb87867]⟩,
   ⟨[0xde2fa36e, 0x5db14fab, 0x77775f09, 0x84e3b546, 0xda951d99, 0xda734523, 0x3975026e, 0x4a89097], [0xc0d12be1, 0xb5753599, 0xfb864d61, 0x5670ce9, 0x305bf3cf, 0xb7153502, 0x2e60af62, 0x7a9bb357]⟩,
   ⟨[0xc7566da5, 0xf43cda07, 0x53fa4196, 0x7fc4c7fc, 0x88dcc9f3, 0x1e20e0ed, 0xfee23dda, 0x7317c7e5], [0x43017070, 0x305e13f, 0x6b1ca7c0, 0x5568410c, 0x104ba029, 0xe5d55ba, 0x90fd49f8, 0x118b284e]⟩,
   ⟨[0x8f3c6d8a, 0xca0f7b5b, 0xaf7ecbf6, 0xaf72dee0, 0xbb0ec4f1, 0x21c86d85, 0xf0525d17, 0x303bc47], [0x896ffcc0, 0x6adcab9f, 0x24e970ca, 0x65764c45, 0x1c3ca718, 0xf14c, 0xd0292587, 0x1cf1ddb]⟩],
  [⟨[0x86111eba, 0xec4fabcc, 0xbbbb793f, 0x599c20b6, 0x5657668f, 0xf74ae747, 0x77bae892, 0x24af29b2], [0xcfac9d5e, 0x47d6876b, 0x24369e14, 0xcacf9f50, 0x6f9cafef, 0x8a231d74, 0xb69aae58, 0x57645a4e]⟩,
   ⟨[0x489900f6, 0x440a3b15, 0x961ac3c2, 0x4b642fd3, 0xc265b973, 0x3d668599, 0x1139ce78, 0x5fa0e65d], [0x1faa710e, 0x3ff15af4, 0xa9422fc0, 0xe45d35ce, 0xbd7bb349, 0x56904c06, 0xe529989d, 0x40c5bee0]⟩,
   ⟨[0x70b20298, 0x8fa46861, 0x4838a136, 0xec629538, 0x137f66d6, 0x23ade0f6, 0x8ea53e76, 0x1a92e05c], [0x9d51eb7a, 0x51728e27, 0xc4352e35, 0xa6b0b758, 0x37a11b35, 0x84c59331, 0xf66b75c7, 0x3933efc1]⟩,
   ⟨[0x66916d0a, 0x7fb68d62, 0xf28a9b14, 0x3325d42e, 0x8592b544, 0x75e83a65, 0x2718628f, 0x524d1ce0], [0x3c584d76, 0x88a110ea, 0x4ac09aac, 0x6b034ac4, 0x84fd3a36, 0x6488635, 0x87d944e1, 0x516f0eb0]⟩,
   ⟨[0xdf11d0bb, 0xe2016da0, 0xb01f6540, 0xb34eb471, 0x165cbb24, 0x13e3d330, 0x7cf7f676, 0x3e755d11], [0x4fea9a69, 0xd70cf4f8, 0xd18f4337, 0x98f59e0a, 0x826344ba, 0x7cce7ce6, 0xf4004bbe, 0x30d129d7]⟩,
   ⟨[0xba9cb975, 0x16ef317, 0xe4b3ab4d, 0x8eebed19, 0x170a2570, 0x8c597df0, 0x5be6de70, 0x451538d8], [0x7a64792f, 0x6c711dac, 0x217ec8fb, 0x8f1896eb, 0x7fe18ded, 0x82e9c20b, 0xb0c5f622, 0x6cebf4a7]⟩,
   ⟨[0x49ccc64f, 0xd9403eb5, 0x28b8a3fd, 0x807ebd56, 0xf291e12, 0xf08bb659, 0x9c3f4432, 0x20d13e3], [0x752bb92e, 0xda247896, 0x86eafa7a, 0x99541794, 0x274e36ad, 0x213e94ba, 0x61a71333, 0x4cc0f1fb]⟩,
   ⟨[0x6478801, 0x19cc11bd, 0x6d18216a, 0x1251562a, 0xcdd307fc, 0x7a5f06bb, 0xfaa9ca2a, 0x4285f6ab], [0x81258996, 0x5a922831, 0x27b8b018, 0x8f7cf8ee, 0x7f81a62d, 0xf030bef3, 0xcd4fd4e7, 0x417acbc1]⟩,
   ⟨[0xec64412f, 0xcfb0ea58, 0x6091e621, 0x9547b64a, 0xfd0c9815, 0x5ea49c7e, 0xe78b355c, 0x6789055a], [0x77e9a73a, 0x8d743e98, 0x2ea3fa49, 0xb032ea6a, 0xceaaa33a, 0x52ea3801, 0xf2c3e22b, 0x73b3bb8d]⟩,
   ⟨[0x7db9e301, 0xaa2a1291, 0xa1293dd7, 0x7f29770f, 0x59683dec, 0x3135bb21, 0x7785b505, 0x70f8df7], [0x37f53677, 0x8f2158ea, 0xabe1af1c, 0x96cc7b9d, 0x6d6477d6, 0x7f977915, 0xdf370eaf, 0x55db3922]⟩,
   ⟨[0xa9dac7ae, 0x3028c03a, 0xbae06be0, 0x16f7df0d, 0x410d57d9, 0x9548398, 0x1510d51f, 0x5e9c7f43], [0xd07717b3, 0x33b9be2, 0xef08ab91, 0xd5d8116, 0xeeefe88f, 0xd5a172b1, 0x996294e, 0x72b1d29f]⟩,
   ⟨[0xe4d0965c, 0x9e2b79fb, 0xf49d8b8e, 0x1f403ee, 0xceb12d6a, 0xbd4d2d48, 0x11fb24fb, 0x4d04dd9a], [0xe5c8d24c, 0x7e613ec5, 0xb918e543, 0x568befe8, 0xe966df28, 0xd6456d1e, 0xbafc71e2, 0x2ddead63]⟩,
   ⟨[0x448d72e9, 0x1d794f92, 0xe7e62bf2, 0x3978052e, 0xe2b92538, 0xf6c7a72e, 0x6ef321f0, 0x43879a88], [0x34f6ffbc, 0x2a823140, 0x35f4c485, 0x26f84e51, 0x28bfa7e, 0xdee65540, 0x5f033058, 0x56216e9d]⟩,
   ⟨[0xcbc772ee, 0x31ca5470, 0x811bb5d0, 0xd3621e11, 0x70863d71, 0x501c4c47, 0xd28d6bdd, 0x564518e], [0xd35b64b9, 0x60e3b89b, 0x6621a688, 0xb4f2599a, 0x3b5e116d, 0x1a8c4508, 0xfabf3125, 0x633ef5cc]⟩,
   ⟨[0x5d4ff62a, 0xdb1d251, 0x4b17d658, 0x6cbd00eb, 0xfa1db737, 0x2fa38212, 0x93a7fa03, 0x7b18cb8], [0x548e5f82, 0x531e47ef, 0x8276963c, 0xae7b94fd, 0x6181a13a, 0x8055d82a, 0x23b6e361, 0x5725b512]⟩,
   ⟨[0x6d8b1ffe, 0xd84c7041, 0x5d994200, 0xf68aca0b, 0x6bb908e2, 0x32bf9944, 0x1ad88db1, 0x1240a3e6], [0xa92b6472, 0xb0be96aa, 0xa1b7726c, 0xef88a155, 0x9349f496, 0xfd9ed, 0x454a05d9, 0x377dcbad]⟩],
  [⟨[0xc04111d2, 0xd0a092cd, 0x338f06d6, 0x5c43a94c, 0x25e964f3, 0x697b4c26, 0x7572ccfd, 0x2cd5a059], [0xb5b523e4, 0xa09fc4d4, 0x4e1e9042, 0x7d8141e8, 0xd637409e, 0x2462512b, 0x7cb2ce75, 0x503f032f]⟩,
   ⟨[0xbcbf1450, 0xc56f38e3, 0xcf2e5594, 0x9f4fc77, 0xfcb653a, 0xf449c3e6, 0x64a53c65, 0x6a1fe752], [0x7c039488, 0xff366fed, 0x8c99a6cb, 0x23f58ba5, 0x8d67f6d6, 0x4b5546c6, 0x178b1668, 0x3405c85]⟩,
   ⟨[0xc0c86696, 0x969f1b33, 0x13746468, 0x9346d06c, 0xae0c6d62, 0x68aed3c8, 0x74fe63d5, 0x7b3d5361], [0xc4f4b65d, 0xfee8416b, 0x554c6d0a, 0xc79bf488, 0xdc402bb0, 0x191d5d27, 0xe087eb9f, 0x31b00167]⟩,
   ⟨[0xe05d281f, 0xd5fe0979, 0x3485446b, 0x8373ab50, 0x9223681f, 0xce5258ba, 0xa37bf244, 0x5f82843e], [0xcfc16536, 0x94ed780b, 0xbd477733, 0x6a9739b3, 0xa04a4195, 0x137d68f2, 0x32bfce, 0x3a0f27e8]⟩,
   ⟨[0x358382f9, 0x7eade421, 0x92e3d912, 0x490b9ca6, 0xf1afbc2a, 0x40ce73e, 0x11ae91ba, 0x5745d473], [0xce303b77, 0x625bed61, 0x85b03a1d, 0x85b2a1eb, 0x3d7c02e0, 0x764f62e4, 0xa7af6dde, 0x22c2d16f]⟩,
   ⟨[0xd19377be, 0x5b985de6, 0xd8e43a10, 0xaf85a06, 0x519f4c6, 0x1465e504, 0xe3e20ba3, 0x5da01665], [0x675d9e2a, 0xcd9b8e9b, 0x6448a2cd, 0x4c77e1ad, 0x1e5d4465, 0xd6094bad, 0xc50db788, 0x4c352951]⟩,
   ⟨[0xee5ab903, 0x42581152, 0x63311418, 0xdad2dbc9, 0xb885e56a, 0xbca4f70b, 0xb94e0876, 0x1f5dd363], [0x3fff479e, 0xf9ad5d04, 0xfe06ad2b, 0xef1176e5, 0x216f77af, 0x46acb00a, 0x857c4f78, 0x709cf4eb]⟩,
   ⟨[0xd0d2ff1c, 0x70cd666e, 0xe7efe4ad, 0x4bad4a6a, 0xfa72024, 0xb43f6c2d, 0xe90c0617, 0xd78f8e2], [0xf80dcaa7, 0x543b9662, 0xf28adfaf, 0xb02fb3bc, 0xc51c54c3, 0x26c17651, 0x3d648d88, 0x815f637]⟩,
   ⟨[0xaea98fa6, 0xac4f43c1, 0xac4398c6, 0x2d223416, 0xda5c5070, 0x48b2eead, 0xbe666f70, 0x632b65f1], [0x952021be, 0x971d3bc0, 0x23b2c578, 0x9fdcb7e0, 0x3cc21796, 0x476d4715, 0x95832a94, 0x4015565f]⟩,
   ⟨[0x13ca725c, 0x8913afac, 0xdc18f0d9, 0xa56dc461, 0x10f3aafe, 0xac3ac720, 0xc628d69c, 0x5d75567e], [0xeeea4bf7, 0xc11be9dc, 0x1c193bd5, 0xad97fbca, 0xc58123e8, 0xd1ec5bce, 0x9c73d4e5, 0xf6df930]⟩,
   ⟨[0xfd759ffd, 0xe80a0ada, 0x239cafc0, 0xe52df94b, 0xfe7a43e9, 0x59640161, 0xdb1a38f0, 0x7a96995c], [0x7cd5011b, 0xa46a1503, 0xac0e9689, 0x75cfb637, 0x97aad2ba, 0x27b740ca, 0xead2f776, 0x64a0748b]⟩,
   ⟨[0x625b3b1, 0xb67e5bb5, 0xc66d2832, 0x2fe19ffb, 0xf70c07cf, 0x47815666, 0xa43e52ab, 0x5a1aa24a], [0x4cac0e66, 0x4ee11f8, 0x3a3a4836, 0x51e51583, 0xb44f6dec, 0x46755f49, 0xc1e9b282, 0x6388408b]⟩,
   ⟨[0x9de7a6a7, 0xd47aa9a6, 0x189bc9d2, 0xec94ad9b, 0x8ec0e950, 0xfa89099d, 0x9f64d27f, 0x1b9fc206], [0xb729de1, 0x76572484, 0x4be22eb8, 0xfe9e8e71, 0xf9db5942, 0x910f0456, 0xc617d82b, 0x4d018459]⟩,
   ⟨[0xf5516c6f, 0xb082b58a, 0x567a8cf5, 0xffba0e73, 0x8a6dd4a0, 0x8ff64ce, 0x69a9f66a, 0x6cf3c89c], [0x62feb0a7, 0x356782ba, 0x3e2907f9, 0x1a18720d, 0xbbd9d92, 0xf840ffa3, 0x20926421, 0x41d9eeca]⟩,
   ⟨[0xb6b08321, 0xcf2e8aac, 0x10d91c0, 0xc76fbe12, 0x68e35e02, 0x54924750, 0x9aee00f8, 0x74dba2e1], [0xc5504e82, 0x94c70d6d, 0xea1770f7, 0xbdf415f, 0x3ca6db0a, 0xda45b700, 0xe133a980, 0x473c6a04]⟩,
   ⟨[0x1e188071, 0xd1ff6c1e, 0xea3f16f8, 0x621a7d3c, 0x6a160f47, 0x60467307, 0x32dc84ee, 0x37ca7d3d], [0x67ddfdb5, 0x54f5f7f6, 0x921ba04b, 0x3a8482f9, 0x1a28e238, 0x842f4950, 0x7214fafd, 0x3a4dc917]⟩],
  [⟨[0xeea25e82, 0xedd8360c, 0xfb7b7ed0, 0x3db6d933, 0xabf15199, 0x882f3c0b, 0x516e349d, 0x228664a2], [0xe88173df, 0x96e6dcf7, 0xd7ec0bc3, 0x382c8d3b, 0x6fa5fa58, 0xfbff6d21, 0x2f41c959, 0x78003980]⟩,
   ⟨[0x9d9acf9c, 0x713ba43b, 0x94876559, 0xf59a252d, 0x437b8ed5, 0x8b310954, 0xe474e98e, 0x76a83790], [0xf6040b05, 0x84c1386a, 0xbf3d8189, 0x69fa9f43, 0xa98d4866, 0x5584164c, 0x3b9045d0, 0x6c89ce1d]⟩,
   ⟨[0xb522fb28, 0xd6ef7540, 0xbb28d745, 0xdb561b56, 0xefa58b87, 0xc9f7543e, 0xe9062979, 0x5f02a23b], [0x6809d624, 0xfd3c0c19, 0xa92eb229, 0x94481554, 0xf5147efb, 0x72d8ec53, 0xd1ba626, 0x14302661]⟩,
   ⟨[0x89020800, 0xb35bd59, 0x430d7deb, 0x3c6f1527, 0x2fffa0e0, 0x9beb3c8e, 0xafd09a19, 0x7e181b78], [0x3b2f0b49, 0xe82fd957, 0xbc0f9da, 0x4c9461b1, 0x2b1c8b85, 0x87d78c41, 0xc1f5bda1, 0x775bed20]⟩,
   ⟨[0x16350593, 0x883ae89b, 0xc19fec8, 0x85d429cb, 0x5742c36d, 0x5938bdec, 0xda8a21b7, 0x2ddbc7eb], [0x7a2e700, 0xa249bde4, 0xe8bd6215, 0x42a3897c, 0x732ff181, 0x87f30ba7, 0x1b912c57, 0x5385d709]⟩,
   ⟨[0x288041f5, 0x2b5c555b, 0x1f425866, 0xd3d90040, 0x2e0fa71, 0x37e40cd2, 0x3a386038, 0x8b37f26], [0x5de1ed78, 0x165bd7fb, 0x829ecc9, 0x22949e81, 0xbce3d01f, 0xbb8705cc, 0x1d233cdf, 0x7961be85]⟩,
   ⟨[0x7659b477, 0x5d3dbc6b, 0x50ef08eb, 0xfd865779, 0xf34ea1a5, 0x502729e8, 0xd2b64602, 0x1548526e], [0xb91d2675, 0xb13632fd, 0xf7b37397, 0x9a42003, 0xccfc4532, 0x37d18f37, 0x73c7082c, 0x3faef63b]⟩,
   ⟨[0xe666db6d, 0x3365445f, 0x339a0076, 0x9051fff5, 0x9bd6d01d, 0x6167fb76, 0xca087b41, 0x9737137], [0xb3270ba7, 0xca2193ae, 0x8f2217b3, 0xef0744c2, 0xf0dd10d8, 0x3e030d58, 0xccb4f2f9, 0x667246db]⟩,
   ⟨[0x3773ec8c, 0x31f3030e, 0x5ad56010, 0xaf2b3123, 0xb37e9062, 0xfc118587, 0x9c2d5406, 0x52840c2c], [0x6670acbb, 0xa96d3dff, 0x772ec6d3, 0xf469982f, 0xa9df4c88, 0x5be20628, 0x673633bc, 0x59d01479]⟩,
   ⟨[0xafb5083b, 0xc9223750, 0x191c2160, 0xf1eb451e, 0xa38ec005, 0xd913794, 0x83fd1d18, 0x31062e9e], [0x5f4816ad, 0x70538f5, 0x925f5da1, 0x90d4855d, 0x22f455b6, 0xc0bba87b, 0xf48d2ae5, 0x517b5f80]⟩,
   ⟨[0x3f4fa7ca, 0xd8b670a, 0x3d114eb2, 0xe29c8849, 0x916a187e, 0x1823780d, 0x65ee66a0, 0x6961c483], [0x62fdc12c, 0x2f6fb20a, 0xcfdde0c, 0x51414e5f, 0xdca39073, 0x16bd56a7, 0x648ffd43, 0xcfe6daf]⟩,
   ⟨[0xaeba9241, 0x3789f4ca, 0x107777c6, 0xe8056bc6, 0x3cb20826, 0x6ee564c3, 0x45448c69, 0x5df36347], [0xb22ce624, 0xfd0fa84b, 0xac753d50, 0x2aa19672, 0x677cc0d0, 0x29a1464f, 0x3cef5493, 0x7c2237b1]⟩,
   ⟨[0x24255918, 0x87c2587c, 0x90b35a37, 0x9aa89a0b, 0x10e7caef, 0x9932eb78, 0xcde31568, 0x49278f16], [0x41188ed9, 0xa4d33c61, 0x5ac3a1d, 0xc587bde0, 0x7248b5e0, 0x2a5c5acc, 0x8510d2cb, 0x60026a1d]⟩,
   ⟨[0x6baf603c, 0xe57cb0c9, 0xab770af0, 0x527f28a6, 0x16f2bc1, 0x2850d8e6, 0x936dc2ec, 0xec2a46c], [0xd4f23fc2, 0xa0bc5306, 0x53a0130f, 0x6dbeda26, 0xee3314b7, 0xb1d52f87, 0x6c234cf5, 0x17168b12]⟩,
   ⟨[0xdadf17d5, 0x8b8bc181, 0xfaffa918, 0x31ec3cad, 0x274e4658, 0x4611a482, 0x73d35ead, 0x5a9e3652], [0xf4028fc7, 0xba68825b, 0x62e203f5, 0x142859d5, 0x1c817a9e, 0xce516ac4, 0x57223f8d, 0x42014682]⟩,
   ⟨[0xb4b66798, 0x51fbfb2e, 0xea9c4ef, 0x3a3f1591, 0xe8814805, 0x3fd3d026, 0xb0c8dfd0, 0x3ca531e4], [0xe585a960, 0x69a6b3f8, 0xbd3f567d, 0x1627cc77, 0x5db9cfd0, 0x6f4ef430, 0x8d02278a, 0x5b56707]⟩],
  [⟨[0x10b96338, 0x6663f2f3, 0xce8ca31c, 0x69373d1f, 0xd67aec10, 0x3d31c5cf, 0x16f2547e, 0x2faf5545], [0x1ea2ea64, 0xf6e397d5, 0xeeaebe7a, 0x2281a0df, 0xfa2527ec, 0x72e53254, 0x76432155, 0x660d059a]⟩,
   ⟨[0x2c66d937, 0xd3ca8b13, 0xcd2df849, 0xc6f34b08, 0xa23a9f73, 0x9af2c9e3, 0x702388e9, 0x24d44bd9], [0xd1b3da10, 0x8da4d6a4, 0x40b93b10, 0xb9fafbf4, 0xefcfd2a3, 0xbbe51bb3, 0x1844581d, 0x68be0395]⟩,
   ⟨[0xea1fae1, 0xdecabd8c, 0xfdfed7c2, 0xa7499225, 0xfb468b83, 0x8489e35, 0x43d95f9c, 0x5b689344], [0x9d2f522e, 0x9fc8364a, 0x3a5d27a4, 0x114db31a, 0xe33a9ec8, 0xc6a35992, 0xdc9acaf6, 0x6fe9ec3b]⟩,
   ⟨[0xdeafc64c, 0x98ae2d66, 0xabe706b7, 0x95aac8ef, 0x223dfa3b, 0xb15a6604, 0xe24b43cb, 0x77dbc24a], [0x8542fa2a, 0x65d6f871, 0x5d326a1a, 0x1093b273, 0xf137afef, 0xba82d607, 0xb9dea6a7, 0x502b32e3]⟩,
   ⟨[0x885ca6ce, 0x88906bd6, 0x1d36bfee, 0x136adf9a, 0x9aa61e3, 0xf844088c, 0x51bac299, 0x4e508ea3], [0xeb821936, 0x251acd26, 0x43d90e10, 0xdf6ad7d5, 0xde7f14b9, 0xebcd7046, 0xab503259, 0x1db258b1]⟩,
   ⟨[0x90ad5d55, 0x348e3018, 0x7067806a, 0xef6be73, 0x41627fcc, 0x72c1134, 0xe904f823, 0x48ee7606], [0xd9fd5ef3, 0xee6ab582, 0x17ab50bc, 0x57765d03, 0xfb7dec68, 0x1ccfb407, 0x141df51d, 0x2e1771c7]⟩,
   ⟨[0xa013284b, 0xcbdd6235, 0x20d07125, 0x4d93fd87, 0xd485418e, 0xb3d055b3, 0xc67add2d, 0x4efb8763], [0x1b2df427, 0xec369382, 0x64d0ddf4, 0x25009791, 0x163056c8, 0x9bd42ffc, 0x5b88beba, 0x60527792]⟩,
   ⟨[0x9d82dadf, 0x6d5d6a86, 0x7c24a1ca, 0xc3ba9a16, 0x2e6981cc, 0x838167ec, 0x7e1e4237, 0x7fb5d857], [0x86a40bc7, 0x83b2c2fc, 0x6f9ac4fb, 0x679d2dfc, 0xe45455ef, 0xb3714cd, 0x394a7797, 0x1c8d833d]⟩,
   ⟨[0x4e641c9d, 0x1fbf8961, 0xd951dfc8, 0x3330dab0, 0x51d96db, 0x9d4eba4d, 0x23066924, 0x27c6dbf0], [0xda5d1d79, 0xb950c648, 0x5e9cd783, 0x544d46ba, 0xe69ba3ef, 0xfa77226f, 0xe4da8423, 0xa93d219]⟩,
   ⟨[0x5bdca76b, 0x7c377cc6, 0xdc58d194, 0x7df505d7, 0x13e389e1, 0x18a24c0b, 0x6c3972fd, 0x5e0782dd], [0x6680fce1, 0x97ad477e, 0x3cbab792, 0x6b07bf22, 0xdc68c9e2, 0xb8df3c73, 0xc04b2749, 0x33ab5a4c]⟩,
   ⟨[0x7e79b5a7, 0xd151c762, 0xc82c7b8a, 0xa4356b79, 0x96e0a2e2, 0x931ddde8, 0x52c54fdc, 0x40378eb2], [0x40c24003, 0xa6bbd5e3, 0x65c34fea, 0xb4f3246e, 0x9c767a23, 0x780b21ed, 0x52bd7e83, 0x5f1e95fe]⟩,
   ⟨[0xcf39f9c4, 0x4f3453df, 0xb8cc2ca6, 0xa3e1cfd1, 0x4b898859, 0xe49bc49c, 0x6c0bf055, 0x4ffd7bd6], [0xd139ad1b, 0x7de7604c, 0x2a3ce8fe, 0x6973f5eb, 0xf9501ecc, 0xac66ff97, 0xa97d46cd, 0x3d96f1e2]⟩,
   ⟨[0x6106eb96, 0x70d5a0d0, 0x398c1fd9, 0x938e038f, 0x1f3a1aa9, 0xe66b7007, 0xf5bd9308, 0x42bdb264], [0x5af84957, 0x4b3fd754, 0x4e27dc6b, 0x9e3e17fa, 0x51d8560b, 0x384fcacd, 0xf8068c09, 0x42f00d11]⟩,
   ⟨[0x7d5897d5, 0x794c1e6a, 0xdf72dca0, 0x4901097f, 0xb01e4c4, 0xded5b192, 0x26dd41e9, 0x364ff582], [0x32fca925, 0xa3f92dcc, 0x207aa09a, 0x8a1fb329, 0xf512ae3a, 0xa9274bd3, 0xc47b9007, 0x161c82bc]⟩,
   ⟨[0x7ae1175f, 0x482ece3b, 0xbdd5dc6c, 0x97cac7e8, 0x9fda910d, 0x56225309, 0x9fc206b9, 0x52a9893b], [0x5bb5aca, 0xad9f2a92, 0xa3b65716, 0xb9eefb5b, 0x8db5a8d4, 0xe7bc173b, 0x399dae9e, 0x6715ec64]⟩,
   ⟨[0x5e41ac75, 0x780796d1, 0x4fb3a0b4, 0x3e165c78, 0x237103e9, 0x198599ba, 0xfa7ed86b, 0x2c04c3f5], [0xac9356f0, 0x29547da8, 0x79eada37, 0xcb345ab4, 0xa295bf2d, 0x1d15d377, 0x2fdc8131, 0x10292c9d]⟩],
  [⟨[0x40e1dc7e, 0xadf3b547, 0x1c345d14, 0x420ce2dd, 0x21dc5c2d, 0xc08e3cbe, 0x6f8fce80, 0x79fdc000], [0xcb105ce7, 0x23ebdf7f, 0x7c6794a8, 0x793fc99d, 0x293e3575, 0x4ca3fb21, 0x7bf73cc8, 0x7fb2acb9]⟩,
   ⟨[0xfc8fcd4, 0x67db6c90, 0x7ee3b705, 0x22a3df5f, 0xc7b2edff, 0xd50ebf8b, 0x99522fb7, 0xc701045], [0xad4f9044, 0x1420cf02, 0xe5b59451, 0xd78dba23, 0x6aefd853, 0xdfdc1c7f, 0xdea1daab, 0x560dee94]⟩,
   ⟨[0x2167a78b, 0xf235513, 0x9f441927, 0xcf463702, 0xa3d1505c, 0xd0ae2723, 0xcd9fbff4, 0x3149d858], [0xf79240fa, 0x2a73913a, 0x252a958b, 0xc904a575, 0x78473d97, 0x10d18190, 0x203bc8c4, 0x42ce7a38]⟩,
   ⟨[0xfa59bb8b, 0x1d2ad4f2, 0x79f137dd, 0x8234964c, 0x5d02679e, 0xb63a30, 0x5dd7543d, 0x506c45be], [0x776bf80c, 0x4378f900, 0xb312f2bb, 0x179558b2, 0xea37c183, 0x5b15368c, 0xb198e42d, 0x7593b19f]⟩,
   ⟨[0xdefa1f48, 0xed723535, 0x87f96ee5, 0xdafc48b, 0x91b1b52c, 0xaefa3ba, 0xa1adbea4, 0x56ba1b33], [0x30a6c905, 0x8a0b6170, 0xb272d12e, 0xc5ba3518, 0x4b6643a9, 0x782100cf, 0x85c5bd2b, 0x12dee803]⟩,
   ⟨[0x78fcadd6, 0xdd07d2d5, 0x3b25c523, 0x8cb8e8a8, 0x530919cf, 0x25063508, 0x1e24f7a1, 0x45d3dd54], [0x49ddaf96, 0x296ae893, 0xace559f5, 0x7ef3cde0, 0xd36f87b, 0x9cdf22e4, 0x4ac9a845, 0x19684765]⟩,
   ⟨[0xc597b7ae, 0x3955b5ab, 0x3ab49731, 0x59f3ba05, 0xf525c6c8, 0xbca5b117, 0x32050b8d, 0x4969c134], [0x970e8e49, 0x353183d9, 0xe95300cf, 0x3d005213, 0x9022378, 0x595f9c8e, 0x1a445c28, 0x70fa8b47]⟩,
   ⟨[0xbadb79ea, 0xecc88ee3, 0xfbd8464e, 0x5bdaf68c, 0xb4280334, 0x24af6a4c, 0x398e5bbe, 0x17a5de8b], [0x92999e18, 0x300b6deb, 0x67defc2f, 0xa0766918, 0xb19f87ff, 0x4e904450, 0xc2871056, 0x3010ad94]⟩,
   ⟨[0x461efcc3, 0x72e747a1, 0x562f923e, 0x329edf18, 0xd081a4e7, 0x65e021d4, 0xb727b6f4, 0x4b2dbfff], [0x9c8505ac, 0x5a597a80, 0x562b82d2, 0x13486480, 0xcc8234c3, 0x477fd480, 0x4800c00, 0x6045aba4]⟩,
   ⟨[0x9c541035, 0x3e087439, 0x6d9d8b6a, 0x389aa76c, 0x36a21299, 0x68fe5e83, 0x402a32cf, 0x67ac313d], [0x25501a53, 0x996131d2, 0xa77a85f4, 0x5c1b89de, 0xed6702ad, 0xa9822c84, 0x56609ea0, 0x50f014a4]⟩,
   ⟨[0xe5a8e91e, 0xf0f8b4e6, 0x1a2ffefd, 0x734cff08, 0x27bcb163, 0x9724ee0b, 0x30b8ef68, 0x6af3808b], [0x126e88fc, 0xe5b3829f, 0x4ee5fd4b, 0xf441ee3, 0xbfec4d34, 0x534d2f8c, 0x76e6737, 0x3e1f16de]⟩,
   ⟨[0x4ed36e6a, 0x4db53e8a, 0x4352b22f, 0x49a9efe9, 0x39cf005c, 0x7829605c, 0xd85db959, 0x190a8e16], [0x9b073ab3, 0x69981069, 0x8c141aa1, 0x8c264b87, 0x603ed47c, 0x7f614282, 0x9f9b0940, 0x21fd2e7a]⟩,
   ⟨[0x1ec6bb3d, 0xc5ca10a0, 0x27a9b02b, 0x9403e3f5, 0xfb43f790, 0x9d3d186d, 0x67dc0c00, 0x7855276e], [0xffffb14c, 0x53dbb2a, 0x43acc0a6, 0x26746663, 0x7ffc1c68, 0x1ee7a946, 0x56dbb0de, 0x14bfaf01]⟩,
   ⟨[0x849ea674, 0x11c89a47, 0x94a540e6, 0x194faaf0, 0x6050e4c0, 0xe61163f8, 0xb1a07b76, 0x6939a166], [0x2ef18325, 0x8166ca8e, 0x30c042e2, 0x96112e65, 0x5a394c25, 0xa805cae0, 0x392e6bb, 0x45a0de01]⟩,
   ⟨[0xb4faaa56, 0xb89cee96, 0x529736de, 0x7a7dc8ae, 0xa727fcf7, 0x9158aa49, 0x1896b9da, 0x621b8b31], [0x3bec74b, 0x875930d6, 0xa7a50309, 0x1056db45, 0xb5657b0e, 0xee713e04, 0x6fcad967, 0x2d68155e]⟩,
   ⟨[0x65b1e2b3, 0x3bb1e9e3, 0x88425bab, 0x2a615670, 0x62f1ba4a, 0x22f4f32f, 0x88a59642, 0x7b5ec250], [0x42d30049, 0x7b5ba12a, 0x86995be6, 0x4e6ac055, 0x45ec87ac, 0x4431a04, 0xed94823d, 0x28974ed7]⟩],
  [⟨[0x12bb5555, 0x59258057, 0xbb7608ee, 0x3141cd8, 0xef77714b, 0x84ebdc49, 0xb5dc1a5f, 0x6a45fc3a], [0x2fbeec76, 0x1f6dc205, 0xa920c554, 0x17eb733b, 0x7a28acdf, 0xdb022c21, 0xa9b62bf1, 0x6af16156]⟩,
   ⟨[0x80b472cc, 0x9379d6a8, 0x7bd92f27, 0x6cb08cb0, 0x147e6e12, 0x19b3c353, 0x26827839, 0x3c26cb2f], [0xcc571e4, 0x98aac9a7, 0xc3c8fc04, 0x75d05f2, 0xd79621ac, 0x718b55a0, 0x5b94b41b, 0x149feecf]⟩,
   ⟨[0x783f9c81, 0x6a150a64, 0xfb18827, 0x5950c2df, 0xf15e3a89, 0xf5d75504, 0xfcb4406b, 0x5f92f2f7], [0x6123e858, 0x665f31e7, 0xa95184a3, 0x4e568ea9, 0x505ff0ad, 0x851eeadc, 0x542c3ef8, 0x62ad5ba6]⟩,
   ⟨[0xc55c23fd, 0x1103859d, 0x695e4e9b, 0x6ab0bd6, 0xdd734990, 0x2cd00d76, 0xb06460e4, 0x5d59c693], [0x1f9c76da, 0x3ba8f2f0, 0x960f5c0e, 0x8e4a7ec, 0xe4aab060, 0x79c82ad9, 0xdf95c43, 0x93d322c]⟩,
   ⟨[0xc627547, 0x88af1258, 0x889a5e12, 0x81e5f197, 0x7cbd84fd, 0x99e0e191, 0xdb0b9711, 0x3024bce8], [0xdb93b1a2, 0x4075c80, 0x628b0e63, 0x12f30af8, 0xeb25a4ed, 0xa3514f26, 0x7bcd0873, 0x3d42e489]⟩,
   ⟨[0x754b236f, 0xf1c16c6, 0x594f5d3d, 0x717ce487, 0xafad77b1, 0x7679c7da, 0x6f3e724c, 0x51afd014], [0x3af6938f, 0xafc9745c, 0xc4e61cb4, 0xca12bfa9, 0x9425cca7, 0x943b5696, 0xb6e48a69, 0x5bd3e65e]⟩,
   ⟨[0xdeae74b1, 0x2d23cf78, 0x43bf2f1, 0xa686767e, 0xe464ade9, 0x3afed34d, 0x5a6ae80b, 0x1e462073], [0x737f7b66, 0xa86aa408, 0xeab3b6ce, 0xd67a0b49, 0x275355f3, 0x6ff3ca4f, 0x688f99ab, 0x6f385576]⟩,
   ⟨[0xfd2f9a72, 0xc9b63343, 0xac267e8a, 0xbd0a126d, 0x5d2839b5, 0x818bd5d8, 0xbf5afce, 0x1bbab4ce], [0x4d8b67de, 0x2827b24a, 0xc34e6642, 0x841f6bd3, 0x5e4a34d4, 0xe9f5c1c2, 0xfda4177c, 0x4e98795c]⟩,
   ⟨[0x763ab04, 0x3c9ff1c2, 0x9832fcfd, 0x4fc1be61, 0x8bd0363a, 0x5fa50c38, 0xf26206be, 0x14c9bb2f], [0x1d31880c, 0xad1a96eb, 0x65dfcf8a, 0xf0a37bc4, 0x3d048fe4, 0x38962729, 0x6480b254, 0x17125c0]⟩,
   ⟨[0x98d4bac6, 0x1e819f5, 0x36b99d30, 0xd3686e04, 0x200a4a9d, 0xc2876fb, 0xe65782d5, 0x45d50c2f], [0x865b7a21, 0xb8316ece, 0xcc875503, 0xa3adb90f, 0x98468fb4, 0xd72e864e, 0xded21f40, 0x13bb23fd]⟩,
   ⟨[0xc6b96368, 0x653c3c15, 0x2b9c381f, 0x9a42fc2c, 0x69534d92, 0xf06b41b9, 0x3fb7bed2, 0x46f7292e], [0x97d1875e, 0x14a2c420, 0xd3b2df55, 0x45dfa824, 0x3f2ba72d, 0x59cb7e59, 0xd7d96c98, 0x2eec65c9]⟩,
   ⟨[0x49650405, 0x907cd4c8, 0x37e05e06, 0xfc29320a, 0x9e29619, 0x99b4c1df, 0x34de993f, 0x74e69bf8], [0x509d9797, 0x62c0f296, 0x5f1ef554, 0x2e6bd4e6, 0xd0b71b8, 0xe3050641, 0x235dde6c, 0x29da0c9d]⟩,
   ⟨[0x689398c1, 0x3cfbca4b, 0x40c9df13, 0x11e58804, 0xbcdf2489, 0x3923a39b, 0x387c8089, 0x3805ccc7], [0x70319afa, 0xc1b4eb48, 0xca089604, 0xa6a5fa4, 0x73139a20, 0x16abde54, 0x94bd61b5, 0x7c0055e0]⟩,
   ⟨[0xcb05a02a, 0xa5ab5cef, 0xbfe903b, 0xc0b4e1b4, 0xeac9e7e8, 0xba528329, 0xa2456b6, 0x266c5a7], [0x5e216eec, 0x507e9a41, 0xd0f1e440, 0xfcc06b0a, 0xe5c7b26f, 0x6faefc8e, 0xb02f85c1, 0x4744cf2e]⟩,
   ⟨[0x1c291bfc, 0xf5e2b812, 0x2cdcbf7a, 0xc18e791d, 0x46554345, 0xc386b962, 0x67518cd, 0x373e00fb], [0xe950051b, 0xc9ba9df9, 0xdd6133ee, 0x182cb132, 0x70a3c71c, 0xd6d7f815, 0x7fafe307, 0x44c5aebc]⟩,
   ⟨[0xa9d16080, 0x6c7ce359, 0x1e8b643e, 0xa874386d, 0x7f48e10, 0xa0648129, 0x93e4d619, 0x2a402201], [0xbd383ea6, 0x8b429545, 0xf2880536, 0xc096d593, 0x20e299b9, 0xb4057d6c, 0x38a825fa, 0x303962ce]⟩],
  [⟨[0x1e1d70d0, 0x9e426ebf, 0xb83529ca, 0x6aea4ddc, 0x7cc9a07c, 0xf3ecd462, 0xc364772e, 0x7f255c86], [0x5613bef0, 0xdf212cf, 0x1309f9d0, 0x771f02a9, 0x805fe1f5, 0xe97bee39, 0xd93522b9, 0x54a43430]⟩,
   ⟨[0xcde4ebbe, 0xc01553bd, 0xa02e56c1, 0xb1928ddc, 0x94a1a417, 0xb91004ba, 0x56cb9c88, 0x44f74be6], [0x921b62e5, 0x6a7e3e9b, 0x5fbf13c4, 0xf2bf553b, 0x86d55641, 0x51cb776d, 0x6425a3ad, 0x71826bc5]⟩,
   ⟨[0xc6d70ef9, 0xd6d49f90, 0x29eba0dd, 0x5bd0da69, 0x803233ef, 0xbba7571, 0x679a17d5, 0xeb0959e], [0xb8a3d6ec, 0x97818dc2, 0xc687eaa2, 0x9497fb0, 0xa65fa4c0, 0x2e2707ea, 0x7542f472, 0x6a74d4c6]⟩,
   ⟨[0x1ee0bc40, 0xd193006, 0x6dc98ba8, 0x7d7bee19, 0x447c38d2, 0x1ad37c98, 0xb6b4550a, 0x3e163ae1], [0x5bc93243, 0x734e36c9, 0x986c35a8, 0x54e217fd, 0x9e3285e3, 0xf0576ff0, 0x186ee7eb, 0x65c950c8]⟩,
   ⟨[0x2012d277, 0x1ab12c04, 0x83872384, 0x97cab84b, 0x1c66fcfd, 0x479c9cf5, 0xf276933e, 0x70abc8b4], [0xba4d14f0, 0xe6b15bf7, 0x22e2f5d5, 0xf4060ed3, 0xcdc5462c, 0xa53f3ca0, 0xc6fc3854, 0x593219d4]⟩,
   ⟨[0x72b6f8a1, 0x9de69934, 0x19e16b3f, 0xecabaeee, 0xeda68d7b, 0xb537ca5, 0xd3ce55b7, 0x744628bd], [0x98a95308, 0x3a5b2d8e, 0x6758c6c8, 0x74d0cef1, 0xda204834, 0x7538198a, 0xa644e880, 0x1e166aaa]⟩,
   ⟨[0x4674acf0, 0xe76ee712, 0xdf9dfb4c, 0x40a6f6de, 0x40c65721, 0x91b0034c, 0xf8e0f5e5, 0x54fe8b8b], [0x75891895, 0x6322ca0f, 0x7d20c522, 0x3d1c821e, 0x8043786, 0x1691407f, 0x14847d58, 0x2c30838]⟩,
   ⟨[0xb8f0c372, 0x57def069, 0xd5abf2c, 0x50375dc3, 0x75edfbc9, 0x22903814, 0xae37695a, 0x56e39bd7], [0x463d13f2, 0xab74b187, 0x3cde8886, 0xc50cb8a2, 0xb35f7d59, 0x1efbd1cf, 0x1057ae42, 0x1296c482]⟩,
   ⟨[0xc347e3fb, 0xa350b57b, 0xadf65129, 0x4312eb75, 0x7f9a6c9e, 0xd9a7e2f4, 0x9bfdcb4d, 0x5493af7b], [0x9ac0e58e, 0x90a443dd, 0xc6f3beef, 0x9777d58a, 0x965ec900, 0x12f00913, 0x480126da, 0x2f6c5b59]⟩,
   ⟨[0xbad8c051, 0x70b907fc, 0xd3b4f608, 0x54492d6a, 0x2e096d9f, 0xe3b46f1b, 0x747d472a, 0x522ad6d1], [0x2dab5e5, 0x8fcd1616, 0x357b1c85, 0xd3ba292f, 0x2704f072, 0xa6db50cd, 0x8341aa73, 0x63488ddf]⟩,
   ⟨[0xfe2aaab, 0x99100a3d, 0x8ea44560, 0x7d30c4e9, 0x2b4c776d, 0xba458c67, 0xbba4d85e, 0x2ec11420], [0x7a7aec55, 0xb1d9fba2, 0x7665aae5, 0x432ab2aa, 0xf3bc7043, 0xd2755948, 0x82510ead, 0x2fc331bb]⟩,
   ⟨[0x46253db1, 0xaaf11cf9, 0xb0df307c, 0xeb025aed, 0x7a82adee, 0xcb7c22a5, 0x9c5fa97b, 0x7316c390], [0xf518067c, 0x91620554, 0x3c96a804, 0x20a438ae, 0x5b0c090c, 0xc4f9dcdf, 0x6e5c1b45, 0x77c512db]⟩,
   ⟨[0xfdd09ede, 0xc981e682, 0xbbb3f57d, 0xc3eb36b7, 0xd12bf450, 0xa07369c6, 0xce017845, 0x16627566], [0x9494af62, 0xfd8dec90, 0x53fd4b22, 0x7e793096, 0xc8aaeae9, 0x21b8e665, 0x18bc33c0, 0x526fa318]⟩,
   ⟨[0x853a2647, 0xf55d32bf, 0xcdaee8fe, 0xd873ed6c, 0x80e52622, 0xa3579e2b, 0x33d16fe8, 0x3871aba], [0x69925edf, 0x714804ac, 0xf2b964ff, 0x340755f, 0xda0d1a07, 0x93830f98, 0xf7fb1e16, 0x2cab201e]⟩,
   ⟨[0x22a8af77, 0x26de3a3a, 0xb45ba630, 0xe77c3dc, 0xfc86e7d1, 0x34f00017, 0x1b62f7f2, 0x796abe2f], [0x1663b5b1, 0x9fa09277, 0x9b2fb9ac, 0xfffdc93f, 0x6b340d75, 0x3aecd1a, 0x314dccea, 0x5d55a168]⟩,
   ⟨[0x747dbd0c, 0x678aef02, 0xd47a6c09, 0xf0d47c1c, 0x3fdd1681, 0x6c2ac72f, 0x6d789d3a, 0x750e7064], [0xaebedd58, 0x3f970afe, 0xe3540951, 0x6bba7956, 0x3e71f6af, 0x7cc461b2, 0xc45fed28, 0x7e51e548]⟩],
  [⟨[0x2ce2cbe5, 0x4a598efb, 0x89c9a51b, 0x774cde0a, 0xca907f34, 0x2d003680, 0x9d3c7d97, 0x62c32dca], [0xb3054d17, 0x37b3a90f, 0x67e58a5a, 0x1423574c, 0x4859fa49, 0xf1d3bb1a, 0x3f5afa63, 0x25f0af1c]⟩,
   ⟨[0x1fe53ac9, 0xd3bf7f62, 0xcbce6164, 0xce2b67c3, 0x95341024, 0xe081c576, 0x9a70ecab, 0x32b0ef5d], [0x3be1e5ce, 0x3ec93c85, 0xa0cb7dcd, 0xe25f54ed, 0x517965b2, 0x9d6b57d7, 0x129b0b27, 0x159f7ab0]⟩,
   ⟨[0xeefb67f3, 0xaef88e95, 0xe0316ab2, 0xeaeb2889, 0xc2cb6753, 0x1491881f, 0x702789d0, 0x67dcdf28], [0x11c0f3fd, 0x8282e0a7, 0x1ba273d, 0x9cdcfdb8, 0x26279b95, 0x6bf1e043, 0x85852777, 0xd42aac6]⟩,
   ⟨[0x608981ab, 0xc4ce393e, 0x52141cb0, 0x210e20f8, 0x6b9234b5, 0x22c2586d, 0x4366750e, 0x52f1b366], [0x760afa55, 0xe38ed0d9, 0xb5d61a08, 0xa43ff25a, 0xb5e21691, 0xbe3a406, 0xfd4e17b0, 0x37b47a28]⟩,
   ⟨[0x4c2c65c2, 0xc46dc6d4, 0xc54be778, 0x2a0b452c, 0xf727070e, 0xaf113693, 0xc68d13a3, 0x7b229cd8], [0x2d43e4b, 0xf63097e, 0x55627fd8, 0x912f8d33, 0x2a0dd9ae, 0x1ebf3961, 0xf0294b2d, 0x7fd33fde]⟩,
   ⟨[0xd0cc6d9f, 0xc72411f5, 0x9b92ff84, 0x66e04c90, 0xe1c033b6, 0x678b4f8, 0xe49a972a, 0x5a99f270], [0xd265a4df, 0x3743bcd8, 0xce0404c3, 0x7bd6ddf4, 0x131750a5, 0x4043767f, 0x9dd65652, 0x4a7d8983]⟩,
   ⟨[0x12b7822d, 0x535bc784, 0xf1f9b703, 0xdd32dd67, 0x2eaa2a1c, 0xffdbf0eb, 0xf64e9822, 0x497c09fa], [0x32ee2a36, 0x18e717e9, 0x583949b1, 0xf01cc4f5, 0xa168755, 0x222ee974, 0xc81ec9, 0xcd14cd5]⟩,
   ⟨[0x14c79cdc, 0x7ae0bd11, 0x6dc08c80, 0x67323d1a, 0xef32432, 0x2fd1abc7, 0xb0e08ebf, 0x65923246], [0xc0754ece, 0xa9fd3d7, 0x5f8644fa, 0xe76b2624, 0xf8bb385, 0xf1f0beba, 0xfc96778f, 0x73251f03]⟩,
   ⟨[0xd08795a9, 0x197150de, 0xfbb8b9cf, 0xad6935ae, 0x3b2b9efb, 0x72118682, 0xbc2b7240, 0x265b288d], [0x2f78c431, 0x7bf2eb36, 0xf2a6e469, 0xf03b83ca, 0x4740e74b, 0x21159256, 0x490f0b9, 0x35be5735]⟩,
   ⟨[0x806c1cae, 0x207f33b2, 0xdac5ade0, 0x4249127, 0x1cc59de7, 0xc4ccf33e, 0x272bd6d7, 0x2a17b520], [0xb48f6585, 0xc36f6b3c, 0x861acf5, 0xd32a7379, 0x2c3291c6, 0x28a12ecb, 0xf02a88d0, 0xe945f95]⟩,
   ⟨[0xd3b3117b, 0x4836ec01, 0xa4c2fd72, 0x4c197454, 0xf9897721, 0x96fced51, 0x5828c97d, 0x14202858], [0x774755b9, 0xca7aced8, 0x97252559, 0x460ff582, 0x5796dd63, 0xaae45776, 0x346ddbf5, 0x711c916e]⟩,
   ⟨[0x5e203692, 0xa60e2e7b, 0xf3bf2a45, 0xcfc72fea, 0x72ac0436, 0x78729d28, 0x29abf199, 0x3e16dd8b], [0x15a41f3d, 0xb1705aa6, 0x308ab87c, 0x8c7512fe, 0x3995381, 0xa27411c5, 0xa780ced3, 0x3142403c]⟩,
   ⟨[0xf1718c7f, 0xe4473e94, 0xa3cab6cb, 0x601bc194, 0x581d491d, 0x8f3540f8, 0x43c15321, 0x456a9b7c], [0x593bb7ed, 0x6f335a2d, 0x7d791514, 0xb6d5a23f, 0x79235ead, 0x976d2f83, 0x44775c97, 0x7d02ea0f]⟩,
   ⟨[0xe5ec268e, 0x322dbc8c, 0xbe14bf5c, 0x1f2f6050, 0xeacf6a50, 0x58ac6397, 0xa5401081, 0x4167cbd5], [0xee5b4bf5, 0x8e6f06a1, 0x6b2f790f, 0x1a6073d5, 0x4f901250, 0x1c09ff3d, 0xe6b40df4, 0x286af8d7]⟩,
   ⟨[0x6bd53ff, 0xf74c8057, 0xe5788f0d, 0x4fce7281, 0x3d015e6b, 0xd6a867ac, 0x6e185a42, 0x4aec38d], [0x83d65cb, 0x8dc12b74, 0x82966668, 0xdb1aa8ac, 0x28af1b90, 0xbd2233bf, 0x172cca11, 0x544569a7]⟩,
   ⟨[0x149bd0bd, 0x9c56fca8, 0xa05f8e44, 0x2b4ec788, 0x92478943, 0x1569cf6d, 0x57380986, 0x67e373e8], [0xed3c14db, 0xf5cc8232, 0xf52eaf83, 0xe3d184b0, 0xbc64038, 0x195d4137, 0x778c3c20, 0x77994388]⟩],
  [⟨[0xa0cc77aa, 0x3daa0c47, 0x7c69cdf0, 0xb9794e74, 0x4549f5d4, 0x3610e50b, 0xb8a112ca, 0x262ca564], [0x554e8714, 0xd5ec795e, 0x717ebef3, 0x73ee5502, 0x1947a478, 0xe36e8a1a, 0x42adc59d, 0x3fbe43a3]⟩,
   ⟨[0x21fbcbe, 0x4de78909, 0xbbbb324, 0xa76a5ee2, 0xcd67810b, 0x5b86519a, 0x3710a4ee, 0x4cca44a2], [0xcd1f8bec, 0xd79a121d, 0xdc9ca10e, 0x2e12a772, 0x8c9e9640, 0xe301ca3b, 0xb731a957, 0x4b25fe18]⟩,
   ⟨[0xf4ad7264, 0xa05da2cd, 0x76977a5, 0x31336489, 0xf2e576a8, 0xc1d269be, 0x7532203f, 0x1e877adc], [0x8b92972c, 0x9c9961bc, 0x6a14d810, 0x7ba07272, 0x6913136, 0xe51095a9, 0x30e0ea8c, 0x46748969]⟩,
   ⟨[0x3c73ba49, 0xdb8ef346, 0x3720570d, 0xbf221312, 0x605db0d6, 0xc07b3639, 0x300336a3, 0x44fcefa6], [0x2d234592, 0x121fac5c, 0x44e367d7, 0x901dee88, 0x1caa6a3a, 0x5b5f3dd6, 0xac2f6e64, 0x72e474ec]⟩,
   ⟨[0xf55be61c, 0x15690bee, 0xdf2678a2, 0xe42b945e, 0x3b7b1776, 0x60a5c8aa, 0xeb9ab938, 0x16103fbc], [0x87ad06ab, 0x79722a1e, 0xd6b632a2, 0xd7b509f6, 0x3b69eb40, 0x8c4e8b2e, 0x14db2225, 0x6a509583]⟩,
   ⟨[0x93b78659, 0x169f35d8, 0x8eff83ad, 0x989b04d2, 0xa6ae4806, 0x72cf7338, 0xf4aaa524, 0x6e156c84], [0xa1ed5cb2, 0x33a608ed, 0xc3d28716, 0xce274a64, 0x45f0435f, 0xfcf1b170, 0x1653d6f6, 0x101d1bdb]⟩,
   ⟨[0x2e5a67d9, 0x45bc931d, 0x697da479, 0xaff02c11, 0x2ea3e6e1, 0x7c7972a3, 0x5e97bb90, 0x71a17d50], [0x19ad4c5e, 0x962e84f2, 0x692020be, 0xbb8c9fc7, 0xe7b36665, 0xa78fdf2c, 0x26f92e33, 0x7ac84ed4]⟩,
   ⟨[0xc3c9e5c1, 0xbd85a9ee, 0x6ed2fd6a, 0x72030baa, 0x39cffb89, 0xb67185ab, 0x833bf770, 0x3e2e51a4], [0x5e27d5bb, 0x248fa348, 0x2e6d3dcf, 0xf8d43596, 0xc8daf81, 0x7f5b93c, 0xad2fc97d, 0x6a7ffa1d]⟩,
   ⟨[0xfaea33f1, 0xff308fae, 0x3cc4c7cf, 0x5f29dffb, 0xecc5a2b9, 0xb9ad4527, 0x48d4b38, 0x8b95af6], [0xdec152bb, 0x56bc43a8, 0x3849d869, 0xd1147b9a, 0xd02af3b7, 0xfe5020c2, 0xb918496e, 0x54c02b44]⟩,
   ⟨[0xb27468d, 0x1611ecfd, 0x513a562, 0x4afce329, 0x2fe74eed, 0x982782fd, 0x17add2ea, 0x66ac58bf], [0x613581d4, 0x8277bc2d, 0x988d1498, 0xbf5bf0c, 0x55c984cb, 0x8a37134d, 0x92211390, 0x409a79cc]⟩,
   ⟨[0x816f0462, 0x8c0081ae, 0x5a68bfc2, 0xb431dc24, 0x5f78c8a1, 0x25c769c6, 0xb382af14, 0x3be0458d], [0xa171adf2, 0x10583083, 0x37f7c39f, 0xba5d5325, 0x5eac7585, 0x76b03b94, 0x9c2df2c6, 0x76159aac]⟩,
   ⟨[0x918e0332, 0x886c73ba, 0xd24b5b52, 0xf6fec62a, 0x36b4d23a, 0xb98759b4, 0x5480acf3, 0x5ec5b3fe], [0x6dd175bf, 0x30ff297d, 0x75f2b9c3, 0x501de744, 0xf19230c5, 0xdebe47ca, 0x32bbbb62, 0x7401f209]⟩,
   ⟨[0x22496d1e, 0x80712e47, 0xda80af1d, 0x36a0ef37, 0x940e5e9f, 0xaf6ca51c, 0x722d9d22, 0x74e17b6f], [0xb8b3ae1b, 0xcb70b878, 0x7df974c, 0xbf8b9a0b, 0xf68a4bf4, 0x89fcc996, 0x6eb0fb2e, 0x46f581e8]⟩,
   ⟨[0x67137153, 0xbce0bd6c, 0x75f64b78, 0xad3e92b3, 0xfd047dd9, 0x6454cd1d, 0x612ae472, 0x181c93eb], [0x23a529c3, 0xe575307e, 0x59c09eb5, 0xb9c43a0b, 0xaa805840, 0xfd233a68, 0xa122ffb9, 0x67c442e]⟩,
   ⟨[0x2cd6762e, 0xe1f3f76f, 0x9764b53a, 0xfb68650f, 0xf1224580, 0x4e90ac72, 0x127eed48, 0x2bf68f01], [0x94d389a0, 0xe6b4b409, 0xd44593d6, 0xd7bc8108, 0x48a86677, 0xdcf03991, 0xcebce3c7, 0x4a52d961]⟩,
   ⟨[0xbaa873ea, 0x55734ab5, 0x7871f323, 0x506de4cf, 0x578612c0, 0x7c3f8b00, 0x9243c9e8, 0x730d4b8a], [0xd385f6bd, 0xa3290689, 0x913596f5, 0xaf688c6a, 0xb646be23, 0xa2d89b5, 0xf63a6029, 0x31891165]⟩],
  [⟨[0x579583c0, 0x331f9e57, 0x69c65da2, 0xe92abadf, 0xa5b8b057, 0xc796fbec, 0x312d1e89, 0x52e6f9c9], [0xda68dfd3, 0x318b1df, 0xa1cac4f1, 0x8baa2eb3, 0xbee7d6e1, 0xcdc89a2, 0x22ab50f4, 0x6102de7a]⟩,
   ⟨[0xe20c707a, 0x2003d83, 0x28289d89, 0xd819249c, 0x72053ff8, 0x3fbc00b1, 0xdf40d261, 0x249c43c], [0xd8f064af, 0x8794eeac, 0xdc9f0631, 0xe2359e70, 0xada310d0, 0xd1603647, 0xedc888ec, 0x6a9e3785]⟩,
   ⟨[0xec41908e, 0xf332b384, 0xbde4760b, 0xf3274472, 0x140d0ef4, 0x96185e89, 0x90e698e7, 0x56462089], [0xf2e64396, 0x841a31c5, 0x3c4118f, 0x8f494ca5, 0x1a188305, 0xc98a4c3, 0x98aab1ab, 0x1c4b5f62]⟩,
   ⟨[0x5d0d8381, 0xddeeebf8, 0x89044363, 0xd1616f48, 0x21616a13, 0x2ee41d47, 0x4bc769fc, 0x2dce6110], [0x16c1c468, 0xe3707a01, 0x969af612, 0x3b674187, 0x1e0671cc, 0xb64bd4d7, 0xb98c297c, 0x7ef01dba]⟩,
   ⟨[0x815381ac, 0x91dcbf99, 0x38b67b97, 0x8d711f58, 0x9c6e322c, 0x9c11f595, 0xe31a782f, 0x4a688d0b], [0xdce93f5b, 0x1297d9f3, 0x7c1dc62a, 0xa7956194, 0x5f718f63, 0x340f217a, 0xfcc0ef6a, 0x71f84529]⟩,
   ⟨[0x3dd00963, 0xd968e50, 0xd7ff66c3, 0x5e696d79, 0x499a9be2, 0xaa52d60d, 0xcdc289de, 0x72482c45], [0x7ffaad3a, 0xc84968f5, 0xf7cd5bed, 0xee91304c, 0xa7cc7c0, 0x68493676, 0x80023968, 0x3411afa7]⟩,
   ⟨[0x6e3294c0, 0xa0aebc70, 0xdc385e50, 0x93263942, 0x8467fb06, 0x7b90c002, 0x38cfd0ff, 0x29477ca4], [0x92a748d5, 0xadc04d81, 0x76cf3ae5, 0xae4f309d, 0x4bb2c2ff, 0xbda34bf0, 0x368536e4, 0x65138897]⟩,
   ⟨[0x6fe6d4d6, 0x9cb8f7d6, 0xaf246792, 0x6c2ffbf5, 0x81524707, 0xd5a4f349, 0x36766d5e, 0x3afe45ce], [0x513ba267, 0x41991b49, 0x6c18aa5e, 0x6ef1eea, 0x88ea2099, 0xa517635, 0xd245b88b, 0x32d2b5e2]⟩,
   ⟨[0x3f517c5b, 0xae38cdd5, 0xd878feee, 0x1c94fdc5, 0xbefce107, 0xabf7a41d, 0xd408dfe8, 0x33bf3fe9], [0x947cb8c4, 0x4f2e6ff0, 0xf998c5a0, 0x3a8e86ab, 0xe359209f, 0x3adc6aba, 0xd9a50051, 0x37a2de1b]⟩,
   ⟨[0xe718f6b9, 0x424f4e34, 0x75c58eb6, 0x50b1a03b, 0x91390e27, 0xb9495314, 0x880e78d8, 0x4ae0cc3a], [0xf1e4413c, 0x10331afa, 0xddfcd2f0, 0xe7a3e554, 0xebf484b, 0x44f6de85, 0x895d0f54, 0x6a762a7e]⟩,
   ⟨[0x8d0558f6, 0x8e606b0a, 0x5c4dd930, 0xaada7604, 0xef4acad0, 0x5b2fc7ad, 0x87f5b6e2, 0xd969ad0], [0x5974e67b, 0xf9a182b2, 0x23b4009a, 0xcd8232e7, 0x285bcc3f, 0x3d8f5ddd, 0xeee1b9bf, 0x114ac56f]⟩,
   ⟨[0xaa45085a, 0xd3ea1b56, 0xd314cedf, 0x5de7bb70, 0x7bccdcfd, 0x8a74384c, 0x8e0e0367, 0x64b80f8a], [0x48884ed1, 0xa9ea432b, 0x8c0ba810, 0x51957a8f, 0x39e810e3, 0x9e883400, 0x28b2051c, 0xa73ed5a]⟩,
   ⟨[0x13c30826, 0x655212a3, 0xb73e8660, 0xae53668e, 0xff108cce, 0x6c33b649, 0x21d49681, 0x39e0b118], [0x70525312, 0xfe4d2152, 0xffd18749, 0x2edce32b, 0xb04d3fb8, 0xfed19b1c, 0x2b225a9d, 0x4dfe216b]⟩,
   ⟨[0x4c70f8a8, 0x583e8a6c, 0x954a9ae1, 0xc8206231, 0xb76517b1, 0x9360b592, 0xeed10cca, 0x362c5c5c], [0x3d607921, 0x3dba9595, 0x5a6ecc40, 0x188a5d6, 0x6cff4ade, 0xeab43c1, 0xde3347e0, 0x1f3673ae]⟩,
   ⟨[0x796593ee, 0x7300c4b3, 0xd8d926c3, 0x607e7e76, 0x77f9fd06, 0x1762ce26, 0xcea891eb, 0xd0478b3], [0x2618b09e, 0xb1129791, 0x33f928c9, 0x5f9d290d, 0xe6178db0, 0xe3192631, 0x8576d3f, 0x21260ac8]⟩,
   ⟨[0x76968e1c, 0x899daf2a, 0xf9c2b3e7, 0x519dea9, 0x93d0bd4e, 0x5fdadc38, 0x43b4d98f, 0x467bff7], [0x6f3936c9, 0x651c316c, 0xaf27df8b, 0xe757689a, 0xa0fa9188, 0x3ab037ea, 0xd927b60a, 0x2f8b039b]⟩],
  [⟨[0xde876a70, 0x72211bf5, 0x73d121ce, 0xa8361631, 0x23d419e4, 0x23852721, 0xdbd03345, 0x3f56d47e], [0xd6f05bac, 0xfb0e91a5, 0xac9d0f46, 0xa0e02bf6, 0x97f1812f, 0x5ed9ea2c, 0xebd5db5a, 0x172f564f]⟩,
   ⟨[0x81f11e58, 0xc790e912, 0x99a5dff7, 0x14a17630, 0x1627516d, 0xf6f30f2f, 0xefcf43b7, 0x522cad8f], [0x6ea01128, 0xffadd45e, 0xd61d1964, 0x5d23234c, 0x2802df86, 0xe9212c85, 0x92aa8da3, 0xa3d237b]⟩,
   ⟨[0xe50ed356, 0x2ced05f4, 0xbffeef3a, 0x1cbc7fb1, 0xbe19f0f0, 0x885991b1, 0xde44a492, 0x6ded0794], [0x44cbecfc, 0x9967e834, 0x6a792ed1, 0xb0674a8d, 0xb7ddd557, 0x360e2de4, 0x70e95d26, 0x26852a74]⟩,
   ⟨[0x3a6e2116, 0x8cbc1520, 0xbf285bbe, 0xf09327df, 0x4a54d3c5, 0x8c7d9ad5, 0x6bd2768f, 0x778f54e6], [0x8ff3dbc0, 0x9b489f8, 0xd2871932, 0xa0fa7fb, 0xe0a8cec4, 0xabb9dc38, 0x21e37a50, 0x2ee092d8]⟩,
   ⟨[0xaf6d88d8, 0xbb9256e7, 0xa218927, 0x3cdcb1cb, 0xf216d6e6, 0x8e5b744a, 0xbc885afd, 0x6f0617f2], [0x268397d5, 0xfba9cda7, 0x5d4c75d8, 0xc6154716, 0x43fb2cd2, 0x9ed8d17b, 0xbe45bc5c, 0x4d0ce3fb]⟩,
   ⟨[0xa38472f5, 0x4259bb02, 0x15107d0e, 0xfafaae03, 0xcf0cf2b6, 0x2b8e450e, 0xed887c3a, 0x788674c3], [0x4b3d2eac, 0x1f3ebd59, 0x75e41b55, 0x82cb5684, 0xc02be49a, 0x5ab76b, 0xf5f90fee, 0x6f13add2]⟩,
   ⟨[0x7afa7161, 0x116374a, 0x2db7f824, 0x8a1ae448, 0xdb656a22, 0xd3c0da12, 0xb989204d, 0x7b095b95], [0xef8f21ca, 0x24c35202, 0x2da5a5a1, 0x91088da7, 0xe3f97d68, 0xaaf1944b, 0x7c884134, 0x245d2848]⟩,
   ⟨[0x68f5c702, 0xd80c65d6, 0x21a2974, 0xe2fe245f, 0x3a11899c, 0xfb8520e0, 0x2be6bf88, 0x4806d1fa], [0x20ed235f, 0xf6f8c11a, 0x7f0d651e, 0x52ac1424, 0xdb9cf6d6, 0x44c3c89f, 0xb2e2e41f, 0x6762516d]⟩,
   ⟨[0xfde91600, 0x2743d874, 0xcdf00100, 0x60975fd5, 0x2d2954f4, 0x78acc864, 0x56373454, 0x46b9e602], [0x6f0fb867, 0x7586a970, 0x242df35a, 0x888e3677, 0xf1460f62, 0x5a639e79, 0x55297dbc, 0x1256517e]⟩,
   ⟨[0x7b9294c3, 0x3f78339b, 0xbce77012, 0x5ba765d1, 0x512e39e2, 0xa88e0cd8, 0xf6ba6a6a, 0x2d63e14b], [0xea29071b, 0xf849a163, 0x4c0a2e22, 0xf32519b7, 0x561c35f5, 0xea5d1315, 0xd9267dca, 0x7041f515]⟩,
   ⟨[0x1fe56e6b, 0xe01e839f, 0x4a93ce88, 0x3e473d8c, 0x89aafdae, 0xc4846ecf, 0x7d946ea, 0x4111d97a], [0x51a45f02, 0xc20881f6, 0xb9cd841a, 0x14c2ac95, 0xf2cbd929, 0x2fbe8329, 0xc812608b, 0x1e8b7469]⟩,
   ⟨[0x7f0a5d, 0xb36a5d03, 0x5dcf7af4, 0xa7e7a1a8, 0xbeb12afb, 0x7227f4c5, 0x4d276783, 0x46227792], [0x48403b93, 0x9ea64d4c, 0xb333ed5, 0x58ea31bc, 0xc5c93119, 0x2d6dd219, 0x45069280, 0x385023a7]⟩,
   ⟨[0xf60c46af, 0x8ab9b9ea, 0xe8b827c2, 0xfa1d3f08, 0x1bad41db, 0x78c6bfbc, 0x23be0c1e, 0x527a0bed], [0x6acce641, 0x66212fd2, 0xee6f78e7, 0x86125b0d, 0x58552a8c, 0xa2a02718, 0x7e9605c5, 0x594f2b77]⟩,
   ⟨[0x88a27989, 0x3fb1f6cf, 0xd96268b8, 0xbc4962f7, 0xb95e2a36, 0xbd8761e9, 0x46dec63, 0x64ab934a], [0x2e53cf1a, 0xc64d1c59, 0x578c5e8c, 0xc9865a9b, 0x7a0359de, 0x5eca6232, 0xfb4685e5, 0x127dd136]⟩,
   ⟨[0x1ae320c9, 0xb0f7b071, 0x52525203, 0x9bf89bb, 0x709c5692, 0x97b20027, 0xedbf6175, 0x16a62485], [0x394c50f9, 0x32c18836, 0xd3b98c19, 0x7d99468f, 0x2e8d2729, 0x8ebe5096, 0xe655f093, 0x4e75b3cc]⟩,
   ⟨[0x9eae827e, 0xcbefd1a2, 0xfbf4630d, 0xde2d1234, 0x96086cda, 0x1b3adcf8, 0x2ea6cba7, 0x43d3960e], [0x1cb5a0f7, 0x18321d1d, 0x47beabb4, 0xdc94c6f9, 0x75af6ab7, 0xfbacc6d5, 0x89b98e86, 0xee5d357]⟩],
  [⟨[0x62e0994, 0x3f01b4aa, 0x5c952259, 0x994b28b0, 0xcdeec70, 0x2678f8b8, 0x212436f3, 0x4d06af84], [0x1cf27a98, 0xe9df52fd, 0xb7718f7, 0xd56b9fd1, 0xd9aeda0d, 0x728be624, 0x1a646888, 0x9871088]⟩,
   ⟨[0x9b586b13, 0xb1bc922d, 0x3ca3b1ba, 0x6c084c54, 0xcf322698, 0x54d196c7, 0x85d527e1, 0x6ec3a55], [0x2a57caa1, 0x6918710, 0x65fd0f6b, 0x6aeac07d, 0xf512f84, 0xb66a34d7, 0xa44e6452, 0x3860c002]⟩,
   ⟨[0x881608a, 0x17263b26, 0x56c18a7a, 0x78d556aa, 0xac3a47ab, 0xa0826a1c, 0xb6933ff5, 0x61686a58], [0xdbcf2c4f, 0xea9d8771, 0x6ab00426, 0x1c66eb02, 0x401c466a, 0xf8daed2b, 0xdaae8040, 0x1ed0a99a]⟩,
   ⟨[0x7208e58a, 0x31effc4b, 0xb4e4319e, 0x28868456, 0xd46ac4da, 0x1059c249, 0x2279b362, 0x3589d212], [0x45552e92, 0xb28b8fad, 0xc3ab8098, 0xc9e32541, 0xf14b35a1, 0x82604904, 0xdb68c214, 0x1e64a89f]⟩,
   ⟨[0xab6947af, 0xdf0e223d, 0x771670d0, 0xe74ef1d6, 0xf429f03b, 0x70a9ad21, 0x1385b8dc, 0x7cb1fa1f], [0x69053d24, 0x25abc0a7, 0x6369d02e, 0x207fe30a, 0xc6e4ec2c, 0x57b76e3c, 0xb927cab2, 0x2e03d2e3]⟩,
   ⟨[0x622d57ae, 0xefa377ff, 0xa885951a, 0x41532f56, 0xcc69b9a8, 0x5ed89aa7, 0x295f5e84, 0x60bff2ec], [0x1e5c3041, 0x411d65c3, 0x4b7772f8, 0xdb533f8b, 0x3bdd4aea, 0x72cadeb6, 0x7c49e454, 0xec79df2]⟩,
   ⟨[0x81d0b84b, 0xc39332c, 0x95ff472b, 0xa76a9a3a, 0x31db2ba6, 0xd12feb99, 0x3683e53a, 0x4aab9222], [0x24fc6271, 0x56cb18af, 0x2544c72d, 0x671581d6, 0xfbd6f4d1, 0xcd136492, 0x3579ee09, 0x6c202318]⟩,
   ⟨[0xc103c348, 0xedc5af02, 0x155a103d, 0xda32344e, 0xb0d1377e, 0xff3a7679, 0x68f02750, 0x16091972], [0xd9e9c143, 0xd4c6360d, 0x968ee990, 0xe0aba0ef, 0x97e4c9ae, 0x57816878, 0x9d63e32d, 0x5a4d167b]⟩,
   ⟨[0x50e25802, 0xb04ba525, 0x66912f15, 0x11da36e, 0x19e0a182, 0x8d8b680, 0x2e462b0f, 0x66aa4ae8], [0xe0b9d283, 0x3227c3a6, 0xf2b2b096, 0x9bf8c4d0, 0xba809eb7, 0x1e51416c, 0x2a67d346, 0x68411b75]⟩,
   ⟨[0x37a67f3b, 0xe55b1348, 0x96484391, 0x5e32d73c, 0x6256b91e, 0xc3f804d5, 0x3b0783b, 0x67f17a47], [0xdd2334ad, 0x2010efeb, 0xb10ff052, 0xbd9965b5, 0xf58aca52, 0x519cda6d, 0x2fd3d394, 0x45beebe]⟩,
   ⟨[0xea271bcd, 0x81722e2c, 0xa4f1342, 0x393c082e, 0x53b345ce, 0x573f7cd5, 0x3d7b4292, 0x7ad71fe2], [0xda8becb8, 0xda406d0a, 0x82fe66bc, 0x14fd41ca, 0xa91dffc, 0x80a41062, 0xf4f0cdeb, 0x33e38e10]⟩,
   ⟨[0x2529532c, 0x234bf38, 0xa76cae3b, 0x9f5d6342, 0xb3c50442, 0xc9944cb3, 0x8abfaf17, 0x51752df0], [0xa37b13fb, 0x2bfa58c4, 0xddb14951, 0x19f80fde, 0x7dcb927b, 0xdc7026aa, 0xaab9fcba, 0x57907272]⟩,
   ⟨[0xf3c046c2, 0xce38712d, 0x47b29d0e, 0x21d1fdb0, 0xcd96d414, 0x7f746e0e, 0x636cfea4, 0x72f07b52], [0xece6382d, 0xd8fe94f, 0x24229ca4, 0x9bfb4cba, 0xe54388b0, 0xfae55b77, 0xa188299f, 0x74ebc32]⟩,
   ⟨[0xe21dcca2, 0x8af2ebcd, 0x377487f2, 0x9916a6b6, 0xd8051d40, 0x607dc19a, 0x419dde12, 0x7dfd53f4], [0x9ad07924, 0xd17d0d61, 0x173e266b, 0x14f7ce0f, 0x281c9eb, 0x687fb853, 0x3361b273, 0x6b35cc1a]⟩,
   ⟨[0x16e02de3, 0x7cd6369e, 0x1f35dfbc, 0x118ee0b1, 0x98b3ee60, 0x7d8c8dbd, 0x8d29ea17, 0x39806fc], [0xec2c2597, 0x3c473872, 0x5e4ef521, 0x81294af4, 0xc22a9d7c, 0x5ed048db, 0xa08c4d4, 0x3879e95b]⟩,
   ⟨[0x96a864fe, 0x206e47f, 0xa55d0631, 0xc94f137a, 0x8e8408f8, 0x9c1b3d29, 0xb9193a5e, 0x150a4046], [0xcb1adf21, 0x4e8f9345, 0x7bd5e1f9, 0x6ed14d8a, 0x60809f68, 0x70825329, 0xfa85a06c, 0xd2f1c3b]⟩],
  [⟨[0xb5c810c3, 0x3c5abe75, 0xe28f1e26, 0xea2c3ef9, 0x8bf68280, 0xeeb1c568, 0x7ae69110, 0x5a165ceb], [0x44550df1, 0xe36c6460, 0xdb909258, 0x6fb4b108, 0x17d4d8c5, 0xbfa14277, 0x927976d8, 0x744caf23]⟩,
   ⟨[0x47ea55c7, 0xcbe70df9, 0x535457ae, 0x8f8119ae, 0x7dafd732, 0x1e3c69ec, 0x39d409a2, 0x1a2e162d], [0x5f81c227, 0xbd7576a1, 0xc86ac2c3, 0xa040af9e, 0xc10fc749, 0x5690c059, 0x49cfaec6, 0x20b26e88]⟩,
   ⟨[0xe3ef781e, 0x87aebd1e, 0x1609a1f0, 0xbc794a62, 0x26e7f61b, 0x96d83142, 0xfc51d17d, 0x5198577f], [0x8e6d0124, 0xbfb5fae2, 0xffd5bd72, 0x91a7172b, 0x2832847, 0x474b0154, 0x59827feb, 0x4baf0b4c]⟩,
   ⟨[0xba090294, 0x5eadaa8e, 0x11a6e9fa, 0x51401bc9, 0x1d2594cd, 0x78f11758, 0x82d203c2, 0x1811ad30], [0x53fd07cc, 0x554cc39a, 0xc7a05601, 0x55fc983, 0xd5a80b4b, 0xb3b34e95, 0x1819bc16, 0x72b4cf94]⟩,
   ⟨[0x514fafd0, 0x750e4f0, 0xad61c7b1, 0x297d27e6, 0xa2d5d410, 0x701d743f, 0xc83b55c9, 0x535dd97b], [0x1cb11bb0, 0x2ee96dde, 0x914450f, 0xecea32ea, 0x4cdbda6a, 0x4fb81236, 0x233c8063, 0x5b75b6b2]⟩,
   ⟨[0xd69d6c6a, 0xf0a934a6, 0x3cc80ac9, 0x313e8977, 0x1e428b71, 0x74692b17, 0xe1be662d, 0x474fefc], [0xaffbf61b, 0xaa2ff6db, 0x776983af, 0xce1594e1, 0x4d5a2596, 0xf00c665b, 0x7d414b9a, 0x30dd2449]⟩,
   ⟨[0xacc44ab3, 0xef862da2, 0x6ee7a44a, 0xbad6857f, 0xd2f9027e, 0x57674bf9, 0x2abf816e, 0x4d771cc3], [0xac0f1348, 0x27befc18, 0x5e4f1202, 0xd83112ef, 0x8e9aaae5, 0x3571bde3, 0xc1379b13, 0x7284830]⟩,
   ⟨[0x72a8890c, 0xa4c2f36f, 0x5824b392, 0x22df0e81, 0x5e720240, 0x50fad77f, 0x3278f96, 0x1d152a69], [0xa7d80f17, 0x25a3e92e, 0x7ef32666, 0xbbf85b32, 0x27222e52, 0xbbb55687, 0x7582fe42, 0x756d22a6]⟩,
   ⟨[0x9bc9eaed, 0xae7493a, 0xddbb275, 0x9185f53f, 0xc3dfdba7, 0x1585d068, 0x562e2455, 0x543208a1], [0xcbcf9535, 0x4c417d81, 0xe35dd6ed, 0xd2dc38d3, 0x346f03a4, 0x9df1e014, 0xf0e772a6, 0x65736e3f]⟩,
   ⟨[0xcfb7ff06, 0x58684a7b, 0xc58e6316, 0x72cc4afe, 0xa8bb508a, 0x2ca9bf30, 0xe2044c8c, 0x61576519], [0x8ff6d2b5, 0xe78fad3d, 0xa934c7b2, 0x6e5b839f, 0xfafa9f9b, 0xc1f3d367, 0xf8b2afa4, 0x637cc398]⟩,
   ⟨[0xfe2b2639, 0xd6fc1806, 0x9e98a7f2, 0x1db199b4, 0xc794f900, 0x508763d, 0x3232e5ac, 0x363f1f7d], [0xbbdbb351, 0xdcf2ad74, 0x5a506bc6, 0x91f2eaf1, 0xb850088b, 0xbde8459e, 0x3e1135af, 0x52df883b]⟩,
   ⟨[0xf93779dc, 0x12fd053a, 0x9e319e46, 0x3e3d8728, 0xe5e360ae, 0x4d631005, 0xb1b29a30, 0x4a8b5683], [0xa8ca45ef, 0x305e5e53, 0xc2914843, 0x59eacb45, 0x1988ecea, 0x83677b7a, 0xd6fd53e8, 0x63d9cd36]⟩,
   ⟨[0xb77eb45f, 0xdf2dacf2, 0x55bba70e, 0x3c1303e3, 0x4526a06c, 0x5ab8eb42, 0x7fe06bbc, 0x4d4fd216], [0xe1486abc, 0x98c5adcf, 0x7f86f3a, 0x9a503bff, 0x56282e44, 0x7cebaecb, 0x1f230da0, 0x4fb09037]⟩,
   ⟨[0x27210752, 0xd1a37384, 0x2cf1c74, 0xd10794d6, 0x820cc08c, 0x48a2095a, 0xe3284b9d, 0x6dcdde2e], [0x5d40510d, 0xb8c7203e, 0x5385e3a7, 0x957e8982, 0xe27d7c13, 0xd220be2f, 0x7b471b5b, 0x2d104ac5]⟩,
   ⟨[0xba0afa8d, 0x3b31d52b, 0xdcc85f88, 0xfa9639f5, 0x8861ddd7, 0x15014637, 0x7b5443b0, 0x31c222db], [0xc3cdd689, 0xe2618546, 0xd528a130, 0x7f3fb754, 0xac5faf99, 0xa0915810, 0xe9899ce5, 0x3863b890]⟩,
   ⟨[0x579c4353, 0xbdd42ca3, 0x4d65cb5b, 0xad30567d, 0x6d91810b, 0xe343f21, 0x42e19816, 0x65e0092d], [0xf84e8c8e, 0x76154dcc, 0xba4ae59, 0xba147ca8, 0x56a1a71e, 0xca8085e7, 0x1a158536, 0x1d90b4b0]⟩],
  [⟨[0xf8b6c26a, 0x5c4b7438, 0x645bbe80, 0xc17a41b, 0x40cf3d85, 0xa386062d, 0xe78f776d, 0x563e42d2], [0x1f07459b, 0x4bb8e356, 0x75d222cd, 0xf01a24b7, 0x24cf3f61, 0xbe3d032b, 0xad5f3a3, 0x759b0167]⟩,
   ⟨[0x7d201aab, 0x2f5aebd1, 0xc0ae02ad, 0x7b14cbee, 0xedc6388b, 0xb9b54430, 0xb622e01f, 0x69e713fb], [0xc5361565, 0x4630ee8e, 0x5c8fb479, 0x6705961e, 0x7c2aa45, 0x125cc97e, 0x25ae3b12, 0x4bc459f4]⟩,
   ⟨[0x28cf94e4, 0xef025496, 0x9db24de6, 0x4cfab25, 0xc62254ef, 0x52b8c734, 0x568ab164, 0xf2fe922], [0xe3f39b40, 0x48551a05, 0x31a7c7f6, 0x4a36865f, 0x840441ae, 0x4486512c, 0x8c7c4b4d, 0x559c6caf]⟩,
   ⟨[0xf103030, 0xfcc0d1da, 0x39cd584e, 0x7a9f1d55, 0x681d0d37, 0x3efb9b94, 0x4d842332, 0x3ae97ccd], [0x3c03676b, 0x85a8ece1, 0x3ad435a1, 0x30f8775, 0x7f2d73b5, 0xf6019b4d, 0x2f14f911, 0x6b77e31a]⟩,
   ⟨[0x9186c671, 0x65c8161b, 0xcdff2f8c, 0x412c3cc7, 0x2c2fea33, 0xbffc1719, 0xc3675845, 0x75dcf68b], [0x3b23d576, 0x476afbf, 0x19315f79, 0xb20caee2, 0x885471a, 0x1bc2a859, 0xc328279c, 0x410ff6cf]⟩,
   ⟨[0x60569d94, 0x327394d9, 0x6ea39d95, 0xff2aeb6a, 0xea0ca3ae, 0x1bed71e8, 0x21072a94, 0x1000a81e], [0x73c02416, 0x368ea229, 0xa4941bc, 0xdf5b2a42, 0xd0d40b3a, 0x4ffdc7b8, 0x48abab4e, 0x7b2c73f1]⟩,
   ⟨[0x81ee1072, 0x90fe34e4, 0x310e13d8, 0xae7a2ff4, 0xcab3927c, 0x6213d3b1, 0x7dc7e9ef, 0x44936fbd], [0x23a1bdbe, 0x3b898ef3, 0x54cc7b1d, 0x3fa6c6a0, 0xc6ac54f2, 0x41bcc3b5, 0xdc10ae39, 0x1ab5d168]⟩,
   ⟨[0xfeaf67a6, 0x1aed113c, 0x342ac459, 0x4e3c7a1, 0x7a99dfbc, 0x65a39278, 0x642329ff, 0x3ecbc6b], [0xa6a4421a, 0x799f4ec5, 0xbee18b3c, 0x44522c26, 0x1975c4bb, 0x1c7bff15, 0xe6a27857, 0xfaa03be]⟩,
   ⟨[0x743ff7b, 0x173ab9e0, 0x2cfc95ae, 0xb11187ae, 0x9c112049, 0xca81bb2e, 0xc03555d5, 0x6b811db6], [0x4fe32256, 0x76c1fc14, 0xd0e47c4e, 0xda8c5a96, 0x29fdb01c, 0xb645d413, 0xac39502a, 0x78898447]⟩,
   ⟨[0x9bf44b35, 0x4285ff32, 0xe3358c7f, 0x207f9029, 0x63baf4ce, 0xfe8f032, 0xff15e1f7, 0x698a0398], [0x7e572df6, 0x54874843, 0x9f43c07b, 0x74683519, 0xa433d6a, 0x47bab49e, 0xfab5c858, 0x9ed8740]⟩,
   ⟨[0x1f6ca820, 0x8aa5e5c9, 0xd3c25bec, 0xad290a94, 0x3ba255f0, 0xdc4c67bf, 0x1dedd8a9, 0xd7ef7d9], [0x5eefd1c3, 0x831a26f, 0x4483e0c, 0x78ca66f5, 0x2faac15a, 0x9d5a5612, 0x5d6facdb, 0x43b0c7e7]⟩,
   ⟨[0x4503899d, 0x34ba537c, 0x2af8ed3b, 0x9debc8f5, 0x84f416e6, 0x396995e9, 0xc7bce392, 0x77f10fed], [0x1f8af262, 0x65ccb72, 0xd2f00fc4, 0xe220ed60, 0x5ee25b46, 0x41a5fb06, 0xdd9070b1, 0x22505574]⟩,
   ⟨[0x44bfc5c0, 0x571ff151, 0x3138363c, 0xbe2558b8, 0x605e356c, 0xb2211abd, 0x176c5f53, 0xb6435da], [0x8dcf484e, 0xf18c917c, 0xcd93d65f, 0x45d4120c, 0x190ae7f8, 0xebb0bf9c, 0x8d8c8d5a, 0x3d403de2]⟩,
   ⟨[0xbe656644, 0xcde760b4, 0x2d21dbc5, 0x99dc5e6d, 0xb6232d08, 0x644fcaf3, 0x859341e3, 0x52955488], [0x25763919, 0x3ab4580d, 0x4ef66999, 0x82ab0c53, 0x180663e, 0xbd395c74, 0xb4756474, 0x7974f1a]⟩,
   ⟨[0x31588ea6, 0x8c15cfe7, 0xf36c882d, 0x9629060e, 0x862b080d, 0xdf8e8e9e, 0xd7a0c5be, 0xbd36b48], [0x76da047b, 0xebd0c6c9, 0xbb94fd5a, 0x4f0f08ab, 0x74910d9f, 0x33d41a4e, 0xa9583754, 0x3d6f8d0b]⟩,
   ⟨[0x4e4fc72e, 0xec4c896e, 0x2ece31, 0xb111210c, 0x2af11e21, 0x7204d937, 0x5d0509e9, 0x59b9c1ec], [0xf9d5bbc0, 0xbc97644c, 0x31b4e869, 0x25b123af, 0x5a6caab0, 0x91d7aec, 0xecc911c4, 0x340b9e80]⟩],
  [⟨[0xec208406, 0xe8036b20, 0x214ceb5a, 0xaf46a05a, 0x46cc8379, 0x8672084a, 0x4ba7885, 0x7de0a42f], [0xc9d3f32a, 0xb772bedc, 0x534b1520, 0x7dae3680, 0xec7120cc, 0x4cd6203, 0xb4e99780, 0x32f88e3]⟩,
   ⟨[0xe4a0897e, 0xb34bda5c, 0x379b2480, 0xf7748b26, 0xb2d97522, 0xf47f6646, 0xf9641db9, 0x66ad8de1], [0xd1bf09c0, 0xf8eb919, 0xb95dc052, 0x7853bb4e, 0x62b1fd4a, 0xbe7ee13d, 0xdc7ce53e, 0x2ff7edc5]⟩,
   ⟨[0xee81df35, 0xe1009aa0, 0x61d0798b, 0x14972f02, 0xf1ea1a6a, 0x5a6831a0, 0xcab301a, 0x1dbaba3d], [0x157d5213, 0x421270e2, 0x6407b790, 0xa37bea95, 0x103a6073, 0xead56b1f, 0xbad909f1, 0x27534624]⟩,
   ⟨[0xc2621ef1, 0xc92d2209, 0x1d3ad3f3, 0x450710c3, 0x19e481ad, 0x8cfb8d6c, 0xe6db01bd, 0x35cacdae], [0x7cdd5b01, 0x2da4a1d8, 0xf55ba11, 0x3e40c751, 0xb15c162d, 0xa91d9ee7, 0x11dba157, 0x13ad3be5]⟩,
   ⟨[0xe72f64f5, 0xae417db0, 0xf13352ba, 0x40822279, 0x1f2b75b9, 0xec43afd9, 0xc9cf2972, 0x14d4bb2b], [0x761b2f1, 0x4a55718a, 0xd81a9307, 0xdafbf756, 0x5d3e5a07, 0x2dcdfc1c, 0x2ebbdf28, 0x696e42ed]⟩,
   ⟨[0x68705410, 0xf4739399, 0xaf5ffc88, 0xfd581005, 0x90a9f517, 0x5490a694, 0x8cf8327e, 0x4a5c8c2e], [0xf7d83da6, 0xc203cd35, 0x7282368d, 0xecaa6b90, 0x2af7ec42, 0x365bb571, 0xd4099316, 0x112e7acd]⟩,
   ⟨[0x3ae3c25c, 0x9abde060, 0xeb9925b2, 0xe4c03dad, 0x9e03388b, 0x3c28dcb1, 0x52b63c06, 0x2337a7cf], [0x4e1af2ea, 0x74dc0f13, 0xcd0d59aa, 0xa010e4e3, 0x9fa14c96, 0x6e4db7ba, 0x557f7cde, 0x5b2c3862]⟩,
   ⟨[0xc8c79ca9, 0xc826e567, 0xe851be0c, 0xe7d110ca, 0xa3606499, 0xffd57057, 0xc6482504, 0x2e9dbc40], [0xf784d9af, 0xc9f0c3c2, 0xb755172e, 0xdd982a05, 0xa023997f, 0x6bc6c19d, 0xe34493c6, 0x4ac177be]⟩,
   ⟨[0x4fa4f134, 0x21c3e087, 0x86f9722f, 0x66e10c34, 0x7398579a, 0xd2927b01, 0x352c3d3, 0x7135b638], [0x3bb5ee11, 0x2da62007, 0x3a946236, 0x8b64f13c, 0x30eae6df, 0x3a83c854, 0xeb6f749, 0x31114e2a]⟩,
   ⟨[0x35bfc72b, 0x2c7b52e7, 0x2b0d4c2c, 0x6dd29ebd, 0x6c92e82d, 0xe90d3988, 0x3864d94d, 0xa924901], [0x9bee9e78, 0x63050824, 0x3dd5cf, 0x7929fd62, 0xe57507d1, 0xd04f832c, 0x37d2c32e, 0x61078bdc]⟩,
   ⟨[0x2e75264a, 0xb118afdd, 0xefd65114, 0x3ab692ea, 0x8b0a2128, 0x58d2ce24, 0x82ed6d5f, 0x4316e6c2], [0x46345be4, 0x97766fff, 0xa7451aa, 0xd7ff3014, 0xaace2e37, 0x78a423f, 0xa6a78919, 0x7f1f90c2]⟩,
   ⟨[0x8e9e3d4d, 0x988fccb0, 0xb95c9731, 0xbd003fc0, 0xb0a84e58, 0x74e40076, 0x1df7fdd0, 0x5fd1dbe6], [0x4e6ce2fa, 0xd2c700c7, 0x903c5ae7, 0xa6e042e2, 0x3c73822e, 0x561cc25f, 0x2a6a0c0c, 0x651a7939]⟩,
   ⟨[0x88cd7642, 0x103e9ec6, 0x3c3c86ce, 0x65ed5218, 0x82785c8b, 0x16bab002, 0xf34723c5, 0xb5c18bb], [0xe724d144, 0x528b0546, 0x780eef9e, 0x5e582a6b, 0x122f17ad, 0xc08283b8, 0x1c22f32d, 0x300edcd]⟩,
   ⟨[0x38dcfd39, 0x3ac716a, 0x94f12c74, 0xcd88474c, 0xe9042ca8, 0xb5e8641e, 0x40d10558, 0x1d5746cc], [0xcb4bb408, 0x7869f45e, 0x569489c3, 0x28fb091d, 0x50a46306, 0xea371eec, 0x75aa224c, 0x28025796]⟩,
   ⟨[0xf7a5923a, 0x4eafa44e, 0x6b69fd8b, 0xd2427c30, 0x393d83f9, 0x4c4e884a, 0x6236ab65, 0x2d34890a], [0x35cc97f5, 0x80038d40, 0x97897472, 0x4fe43c84, 0xbef161af, 0xe5f56243, 0x9372e631, 0x3e1bdd6f]⟩,
   ⟨[0x5732669f, 0x6a2b287, 0xcdf4d2c0, 0x92d00397, 0x454a57f5, 0xcd9a25f0, 0x2f0cdb0b, 0x23adb724], [0xff0f8cb0, 0x504da603, 0xd3e24181, 0x14ef9d30, 0x47fc1e66, 0xb1b1328e, 0x6c60354d, 0x319b2a84]⟩],
  [⟨[0xf1d56038, 0xbbf5542e, 0xdd71cfc3, 0xede3e637, 0x2e9f6c8b, 0xfaa81d21, 0x69fbd060, 0x4dd2d44b], [0x14366a20, 0x71fb6233, 0x9575451d, 0x155e486f, 0xec7807d9, 0x1106f0, 0xc617034c, 0x1c80e5ab]⟩,
   ⟨[0x8619f5f4, 0xd3e478db, 0xf68170c2, 0x1df5c367, 0x3430de1d, 0xeab09524, 0xc3cd4c24, 0x48f09361], [0x60644fed, 0xe49dea4b, 0x758c3679, 0x47170f1c, 0xb0382a84, 0x4cc1e6e8, 0x10a4465e, 0x2dbdb9da]⟩,
   ⟨[0xc8400a4c, 0x67baa79a, 0x1d28ece, 0xfa306753, 0x6f33289c, 0x29db5b1c, 0x26a8fcb4, 0x44757573], [0xe1b0a795, 0x59616219, 0xc5b32fa0, 0x3032d939, 0x7c3cea2c, 0x3010c917, 0x9892bdf4, 0x5cf83ef1]⟩,
   ⟨[0x3c7e83e6, 0x55de1141, 0x74ea0366, 0x9d03929c, 0x83baf3fe, 0x5ca60c50, 0x7f70e905, 0x3d9bca58], [0xfcc5ab59, 0xdb79df5a, 0x53f68d30, 0x3cfcf06, 0x4fcfa5f1, 0xbe101a78, 0xb49e493c, 0x115d7078]⟩,
   ⟨[0x76a0ccbd, 0xf14023aa, 0x86f2e50, 0x4287f0bc, 0xf79a37e7, 0xc5eaa559, 0x4e4f2a2, 0x5d527c09], [0x51daa504, 0xec914616, 0xeef1dc95, 0x250d90c6, 0xa50330b2, 0x1b0aa868, 0x54189bbe, 0x7b45a783]⟩,
   ⟨[0xf019d6ff, 0xd602e05, 0xdd1800ba, 0x563e3893, 0xf3c7f7e5, 0x7146727e, 0x4b026635, 0x59641d98], [0xe91ddbb8, 0x50bcf90f, 0x7f8397a6, 0x5d43e78e, 0xeb15896e, 0x8734a261, 0x9ff6b361, 0x4ad1e864]⟩,
   ⟨[0x320322f1, 0x1a9b601f, 0x91f611c4, 0x606d40b3, 0xa19c918f, 0xb984958b, 0x776f834e, 0x67bfb045], [0x68dd85f0, 0xc59e5569, 0xd4067875, 0xb5642834, 0xcb138df3, 0x247e7d65, 0x5cb9281d, 0x73640a03]⟩,
   ⟨[0x88639889, 0xc7c34ccc, 0xa785c707, 0xd9e44e07, 0x32f83073, 0x1be68efe, 0xae5317ce, 0x249902da], [0x76ca92ff, 0xf1f0b86a, 0xc01cb06b, 0xa7f502cf, 0x595aa185, 0xa8b4766, 0xb792de49, 0x614135aa]⟩,
   ⟨[0x564f2bc8, 0x5392caa7, 0xcc894fcd, 0x1cdda684, 0xa4ebf82f, 0x10ac2378, 0x5051bff9, 0x6211ea46], [0x30e8e210, 0xe53b0174, 0x2c0e381, 0x2374fec3, 0x4da07224, 0xf8b1506b, 0x54da7a08, 0x4e451e01]⟩,
   ⟨[0x241fc7fb, 0xa8404d9c, 0xc4406332, 0x1d6dbf6e, 0x30162118, 0xfe142319, 0xa7ef5ef5, 0x69de75cc], [0x856e26a5, 0x8d4d09, 0xc588ecf6, 0x2bc64b65, 0xaa01ee19, 0x7a523d0b, 0x932f0b95, 0x213ef390]⟩,
   ⟨[0x1cd716fa, 0xa42fe513, 0xe8001b6, 0xfb13b3c6, 0xd8f530cb, 0xbfdc7998, 0xf1c61761, 0x4f9c05b], [0xafed9d64, 0xfb57396f, 0x421ac123, 0x28ccee3a, 0xf6c21acc, 0x32590c9b, 0xbca75ae3, 0x503b97cb]⟩,
   ⟨[0x366946ed, 0x745208bc, 0x4c906596, 0xa75d88e9, 0xee043530, 0x3a30c7e, 0xd11bf4d5, 0x5c67c151], [0xe7ae4bb3, 0x4f75dfa, 0x7f8d7404, 0xa0813606, 0x19d68f64, 0x8b9f9210, 0x6f73b55, 0x5ab67971]⟩,
   ⟨[0xb0687095, 0x8064c4a, 0xb0106df4, 0x27e30ddd, 0x8482524a, 0x31d29c70, 0xd86fdacd, 0x65dd5896], [0xc647197e, 0x81c013d, 0xd7a53a45, 0x51c10b9e, 0xdd7fc53, 0xacb9a4de, 0xf646220b, 0x639997a2]⟩,
   ⟨[0x1fb93b43, 0x97ccf825, 0xe488d786, 0xb7d7713d, 0x3e4dbb33, 0x4f759566, 0xe0f09964, 0x13b5d8a1], [0x316cdd97, 0xffddad74, 0x52c92ee9, 0x67c55782, 0xac5d6fd, 0x3b50f94, 0x1484df88, 0x56c5c009]⟩,
   ⟨[0x1778d303, 0xdce199e3, 0xf1dd4ec, 0x53a2a4c6, 0x370a7b99, 0x7cc5ee9e, 0x2598744e, 0x4403202b], [0x228247b6, 0xccfaa978, 0x4a1d0e27, 0xf50d14bd, 0x80723abc, 0x66695061, 0x742c0015, 0x750ccb6a]⟩,
   ⟨[0x81a109f1, 0x7b046936, 0xd4c1afe5, 0x6414d9a3, 0xdd14ac1f, 0x35070548, 0xdec0d3f0, 0x27172f39], [0xf2e273f0, 0x4ee0a7bf, 0xec82b8e6, 0x28c7813, 0x2081eae2, 0x907bf09f, 0x414d6421, 0x72e4c3d3]⟩],
  [⟨[0xa073711c, 0x2064097e, 0x5a65ec25, 0x980d830a, 0xf0877567, 0x7906a87c, 0xf1980a3a, 0x3e5eae10], [0x9272ce32, 0x5f51023a, 0xa437c974, 0x71d69e68, 0xd0b579ff, 0x32006ea1, 0xa436e129, 0x191935ff]⟩,
   ⟨[0x91c1474c, 0xe5fe2909, 0x1f0b10f5, 0x7350b9fa, 0x6b4ab128, 0x2006f41d, 0xcd95fa42, 0x4ebda6cf], [0x5da9a7f4, 0x45028938, 0x57fb462b, 0xd8129de4, 0xe592ef90, 0x4f2bf2c9, 0xd6751dcc, 0x14a1a16b]⟩,
   ⟨[0xde0cd47a, 0x7460bb84, 0x468cba3d, 0x261f24d6, 0x1e3c2d8a, 0x229d3181, 0x1d19e059, 0x4ae520c9], [0xdf8dc66e, 0x5ac3aee7, 0x299697ee, 0xcb417060, 0xce97514f, 0x227c1497, 0x2e991fde, 0x2589b803]⟩,
   ⟨[0xa97a5d03, 0x7fe9d585, 0x10d58157, 0x7333a1ef, 0xc94c3df6, 0x54c1ccd2, 0x28073b4e, 0x25c1b252], [0x635ad79, 0xeeb29af9, 0x9aa38848, 0x880019c1, 0x30a9a497, 0x1a859942, 0x92b25aba, 0x57edcc2d]⟩,
   ⟨[0x65e19de6, 0xa98dae7d, 0x46ad8696, 0x8007dd17, 0xa7f3bbad, 0x61f2e2cf, 0x54193858, 0x1efcd387], [0x11666ecf, 0xfb54fd60, 0x36e7d371, 0xd97ea5df, 0x3b9371ff, 0x944ca170, 0x5de7fb0, 0x32a52cac]⟩,
   ⟨[0x19ed8b5e, 0xb960fff6, 0x660354bb, 0xfd6b4c3e, 0x1c9e95f0, 0xf8ecaada, 0xa8e08cc7, 0x687a6d29], [0xc6a83d12, 0xd38b7670, 0x1265bf30, 0x1646064c, 0x2464892d, 0x7de19ffe, 0x1bdbb729, 0x5b57e08]⟩,
   ⟨[0xffb7a98a, 0xf3586b04, 0xcb072826, 0xf1850cdc, 0xcf53bfb0, 0xfa3e66a4, 0x6e07221, 0x7c78e567], [0x3b4e72ae, 0x21e6f245, 0xc6a3dbe8, 0x10a0d78b, 0xd618ddab, 0xb9fc6d77, 0x76951de5, 0x33092d13]⟩,
   ⟨[0x5a0257cb, 0xcaa1bf9d, 0x866c505f, 0x1044e224, 0x81482e7d, 0x9b514107, 0x88940bfb, 0x538cb867], [0xac21dcc1, 0xace68b78, 0x1609bf8c, 0x57942f3c, 0x66e48c7a, 0x30a47f32, 0xb0da341f, 0x170d301d]⟩,
   ⟨[0x18ed9863, 0x19643eb2, 0xd9104f33, 0xbbe55bcc, 0xa15b283c, 0x77008b6c, 0x873a6a02, 0x2a6e0b41], [0x3cb9a225, 0x517410df, 0xf538730a, 0x20d76e38, 0x9f8724f0, 0x76c9cad6, 0x6be9a035, 0x588ba106]⟩,
   ⟨[0xf842f66c, 0xa059dbec, 0xb3ed0481, 0x59ca186d, 0xd454490f, 0xa5b2abcb, 0x2624902, 0x4a0f6004], [0x4d2f605f, 0x45af7b51, 0xc368030f, 0x57e8fe0f, 0xc0727ae, 0x23b74557, 0x2b603ec4, 0x7e91ec77]⟩,
   ⟨[0xfd582be8, 0xedd284cf, 0x81093cda, 0x3077cb23, 0xfdea4fce, 0xb1934840, 0xd7f01c9a, 0xf9b9d1], [0xa1c707b, 0xa55e5c5b, 0x2f8618a5, 0x5cd73cb, 0x512eea05, 0x7327cecb, 0x8bf2a4d5, 0x5130a099]⟩,
   ⟨[0xfa7a1c7b, 0x34d18880, 0xfd4e043f, 0x5e0d6c53, 0x1b4442ae, 0xb4dd8010, 0x78ed7563, 0x59d9183e], [0xf1fae158, 0x624ddafc, 0x5c4c1e92, 0xc08c3653, 0xce3e42ef, 0x452fd71f, 0x20b902ec, 0x175b4908]⟩,
   ⟨[0x18f4ce34, 0x5f0fdf24, 0x9b7e61b8, 0xa64a3011, 0x663362e2, 0x8109acd5, 0x97f3df44, 0x4d02f824], [0x3a4f916a, 0x2ce27cce, 0x3b85b146, 0x4a4e6cbb, 0xdb8c9e5e, 0xfe7a6199, 0xd94b8d23, 0x53f5d620]⟩,
   ⟨[0xe77610a9, 0x37febec3, 0x92245cb0, 0xe82d8eac, 0xf79a31bc, 0x3fd2ceea, 0xb446850c, 0x277acf32], [0xce1a2786, 0xd89ff4c7, 0xffd3a23c, 0x441781e5, 0x7e85496, 0x7876efc5, 0xe6f41b30, 0xf306c7b]⟩,
   ⟨[0x5ab1b92b, 0x3bf2bfd1, 0xf373fcf2, 0xdcc3f5a6, 0xda53c229, 0x27cfc4a6, 0x508e677f, 0x5885737c], [0x7b829f24, 0x1275d0f1, 0x4991b75b, 0xbd3c0b02, 0xe581c569, 0x3f82acdf, 0x3f28904e, 0x12329435]⟩,
   ⟨[0x99c3a09b, 0xcf7bdccc, 0x5f7d601a, 0x19191107, 0x39fbaa22, 0xa82f7460, 0xd75b5786, 0x3105a6fc], [0x932f69a6, 0x9673dac4, 0xb57d6ee6, 0xf5664b25, 0xa3cdd3e, 0x1edac112, 0x42778563, 0x3cf84f8c]⟩],
  [⟨[0x65de3040, 0xe36fd1b7, 0x8aa0d3fe, 0x240eadea, 0x7f77f804, 0x76971431, 0x591e9694, 0x6fcc933e], [0x18f48742, 0x3218d92b, 0x5e1b4001, 0x215f13e9, 0x7a8d69b9, 0xcdf333cd, 0xd2fd134f, 0x14f159b1]⟩,
   ⟨[0x7a50c16, 0x2d1228d6, 0x29ae42fd, 0xdfd80f6, 0xbb8f3512, 0x6c18b122, 0x303f3dca, 0xfe61243], [0xda50709b, 0x43a29f4d, 0x4b92bf7b, 0x3ff58c08, 0xdfcef797, 0x62dc6b41, 0xc7b83f32, 0x43f9525a]⟩,
   ⟨[0x15f08f5b, 0x17ebbc9a, 0x8bb3e932, 0xbcd3b640, 0x510bbd36, 0xd46fbb9f, 0xcf65442b, 0x389abba8], [0xb575545c, 0x3a3dafe4, 0xe1d0994d, 0x6ab985ec, 0x69e1db27, 0xcc2a697b, 0x271581dc, 0xd483e18]⟩,
   ⟨[0xc046d968, 0x380d4095, 0x55d3318b, 0x53039755, 0x91ce6ffc, 0x57fa7629, 0xa4adb641, 0xa0f2885], [0x6e5c2909, 0x8b99af1b, 0xb8794175, 0xbdfe7ffd, 0x795ed786, 0x2cfb948a, 0xfd0df66, 0x11fe7465]⟩,
   ⟨[0x22e152e2, 0xfc2cc2bd, 0xe30bceb3, 0xcf6ab96b, 0xbc89b689, 0xae89c041, 0xe7523ab6, 0x6813430c], [0x40a4fa33, 0x3f49e728, 0x857cb0c9, 0x25de1b7, 0x11ea5ea5, 0x6d71465a, 0x46c8d7cb, 0x6651f7b9]⟩,
   ⟨[0x5268098f, 0xd05f1dce, 0xdc75030, 0x891dbb68, 0xea916291, 0xd939e428, 0xea37d060, 0x5f8eeccc], [0x8dc5d544, 0x885f1ea8, 0x57e7448f, 0xfd3b3d17, 0x79531de0, 0x5fc791a8, 0x42e66daa, 0x780c1aaf]⟩,
   ⟨[0x397bb28f, 0x19697778, 0xaaa9069d, 0x5ec31d44, 0x3ca24a6f, 0xdc2dfeaa, 0x80bed770, 0x3f66cfca], [0x1a102662, 0x2b6b8215, 0xc5d34ceb, 0x44b4d7a4, 0x88afecf2, 0x17e0fde6, 0xcff8d214, 0xdefa14b]⟩,
   ⟨[0x8365ca84, 0x14035aa4, 0x197ce2b7, 0x309ceef0, 0xed39af37, 0x21305426, 0xd2ea583a, 0x10d01d11], [0x9fa5c766, 0x3f2e9749, 0xd70549d4, 0x98357584, 0xd279946d, 0x8ff80803, 0x99df1253, 0x53dbc433]⟩,
   ⟨[0x5329f12f, 0x1d0d9efa, 0xbe1f007f, 0xbc9f74cf, 0x18ee4dbc, 0xd7f2aa9a, 0x3a792753, 0x634bf4cf], [0x2fa6255a, 0xd5dc72ad, 0xf3bc00c5, 0xee69ea43, 0xd8147a1a, 0xea930f61, 0xf4e9ad37, 0x25e1368d]⟩,
   ⟨[0xb7c955ec, 0x9422aaf7, 0x6a74d634, 0x7c710761, 0x305ee420, 0x4ed89932, 0x2e937289, 0x7e42212], [0x28566c88, 0x7ebb2313, 0xc27ed656, 0xc7ed9c7a, 0xbf14fb3b, 0xf77f3873, 0xeb957520, 0x447aa1e5]⟩,
   ⟨[0xb5c5e016, 0x3e3cec7e, 0xbde44d26, 0xb33ddff7, 0x66e820dd, 0x2056e9c7, 0xf8196fe2, 0x21a9e5d4], [0x88040c97, 0x86cb0a17, 0xff515d49, 0x18ad8ae7, 0x226a400a, 0xcb8a564a, 0x8b72a0d2, 0x6db48979]⟩,
   ⟨[0x6324ded2, 0x4365074b, 0xaedaf0f8, 0x9efb5cc6, 0xc0792b14, 0xcf952c3c, 0x97ed965e, 0x70b82ab9], [0x3acebce7, 0x931b9886, 0x18c2425a, 0xda850491, 0xe499f7fb, 0xd88e1e27, 0x960981de, 0x61d3f246]⟩,
   ⟨[0x8393eb0a, 0x1d8ea227, 0x7863fb53, 0x9dcc23d2, 0xd5ebd297, 0x961b2337, 0x5bfed1e9, 0xa96f8b2], [0xfe7dd2b7, 0x39ea1803, 0xe5f7772a, 0x7e4817bb, 0xd44a41ef, 0x3668c5ff, 0xe11f8e11, 0x78227653]⟩,
   ⟨[0xd024880b, 0x272d6933, 0xf236fd8a, 0x733c029f, 0x604868f0, 0xba5c20bd, 0x321175c2, 0x33f211ae], [0x9fd79fe3, 0xe40010fb, 0xa685a59f, 0x9c6ea1dc, 0x8eb9889d, 0x79963ffc, 0x5f67108d, 0x15434e7d]⟩,
   ⟨[0xd68b670f, 0x42c14bbf, 0x23f1aa69, 0x2021ac9d, 0xaea04636, 0xbf4c6d74, 0xbd1fb11d, 0x1e4d2f8e], [0x37911aa6, 0x4b0cf0e3, 0x2c484507, 0x7542d928, 0x889542dc, 0x68836751, 0xfe2282a0, 0x5f229f7]⟩,
   ⟨[0x409b2067, 0xaf269e8b, 0xa860f075, 0x6c749952, 0x5df7c7f6, 0xcb7492da, 0xe8e591e1, 0x2b010a7f], [0x4d9e871, 0xf7446577, 0x5e68408e, 0xc2e0a2a3, 0xd0f0baad, 0xd512e9a6, 0xc6be34a3, 0x3e2f73e1]⟩],
  [⟨[0x2ec65bb4, 0x6c466c8e, 0xb1fc8f92, 0x912ffae5, 0xb50a522d, 0x7587be5d, 0x649847cf, 0x15939ff7], [0xf464794e, 0x69e81d63, 0x6d3f858e, 0x7bb6eee3, 0x10813bbb, 0x24fe5c01, 0x6d80756c, 0xc491f97]⟩,
   ⟨[0xa5ff3510, 0xbad1c256, 0x99c1b7b2, 0xf06f38a2, 0x49312d6, 0xf7c0f164, 0x5749b3e4, 0x73c5374], [0x55211a81, 0xd6761480, 0xdfa98f45, 0xf34cb5db, 0xb4aa4967, 0xaf59fa47, 0x8214be48, 0x116935b9]⟩,
   ⟨[0x9fe10e46, 0x1d86fa00, 0xb5b8494, 0x73b8099c, 0xa1102be7, 0x9a6ea98d, 0x5514ca21, 0x3de1948b], [0xd0aaaa53, 0x5d18ed69, 0x3c952b98, 0x17bf7dff, 0x7ddbd937, 0xc60143fe, 0x6f2f10c4, 0x214f2f55]⟩,
   ⟨[0x2f047d0, 0xb2f28695, 0x923f52bf, 0x80952dfe, 0xa5017c3e, 0x56f3306b, 0x52dadfb, 0x5dd62f07], [0xd5274f90, 0xdd11592d, 0xe471965b, 0x40632ff3, 0x7e618430, 0xad1939a8, 0x33f19556, 0x5dd9cad2]⟩,
   ⟨[0xc1094747, 0x7b0aa88c, 0xf6753a0c, 0xcfa6b95d, 0x2a252a4d, 0xe81afada, 0xd3770570, 0x364cab7c], [0xb4610a19, 0xe99d8252, 0x55ed9ad3, 0xb22b2fec, 0xbebe7fed, 0x328acbdd, 0xfbedfe84, 0x1d379d61]⟩,
   ⟨[0x5edf8c9c, 0xd9effffa, 0xce548ec, 0x9baa7181, 0x5fa8feeb, 0xeb458aeb, 0x904d841, 0x18c5e691], [0x8f33d2e5, 0xfcefae28, 0x6fafda18, 0xb3cf853e, 0x427d6218, 0x5de94ba, 0x3731d3e9, 0x21d8aed]⟩,
   ⟨[0xe92719da, 0x6c8c318, 0x1a65dfdb, 0x1f7cde12, 0x4b672a2d, 0x9b4d531e, 0x115faf11, 0x3e39cc63], [0x37af60, 0xc9c3f339, 0x2b43d27, 0xc1c67587, 0xc42df26b, 0x46b77cdd, 0xebfa97a7, 0x7235f2b0]⟩,
   ⟨[0xe898094e, 0xaf7ffc9a, 0x146a27e3, 0x8d18ab93, 0x8aec0416, 0x1376b797, 0x8d91c25e, 0x746a1b1c], [0xebde2e3, 0x16dcccc1, 0x8ce7d61e, 0xfe4abd41, 0xe25f1551, 0xb9830395, 0xb885a943, 0x543493d7]⟩,
   ⟨[0x24ebcfc0, 0x52c659e6, 0xd38367a4, 0x72e3ca91, 0x4d168f4f, 0xa3086aac, 0x5d64207b, 0x656acfee], [0xba196a9e, 0xbe697cba, 0x97dffec2, 0x6a737acc, 0x54f04dbd, 0x393e2661, 0x4b0e92bd, 0x4fff7c24]⟩,
   ⟨[0x828ec659, 0xc709cc59, 0xcbdeacb3, 0xb275ac8c, 0xf7922523, 0xa8d08921, 0x400a6459, 0x68b92f96], [0xdfbecb97, 0x45803ec2, 0x7515d696, 0x49464e05, 0x8f03e969, 0xf39ca961, 0x1cd7c79f, 0x605065a1]⟩,
   ⟨[0x97f1a97a, 0xb91c03dc, 0x201ffb53, 0x2f6d50bb, 0x46241856, 0x39d67d40, 0x74d04805, 0xa2c0256], [0x28374a6d, 0xd289b94c, 0x10edd6fc, 0x1176c73a, 0x56ae631e, 0x890e9c39, 0x6027f549, 0x30451cf1]⟩,
   ⟨[0xdf8f4ddb, 0xcb33fdc, 0x87ff6e63, 0xd9c540de, 0x55a1d8e4, 0xd8445732, 0x8ac403a6, 0x1497403d], [0x6a4baac6, 0xa2591c40, 0x48dd3e5d, 0xf493cf1f, 0xb69af047, 0x7b9ae39f, 0x3782b110, 0x293123c0]⟩,
   ⟨[0xb7a36b62, 0x14921836, 0x4ca3aa39, 0x5ac82430, 0x52f601ca, 0x1303aa6, 0x2b43bb72, 0x7ee1e6c7], [0x64d44957, 0x7f82b37b, 0xda4a6fec, 0x840d0654, 0x290f75d, 0xfc806fa1, 0x4c62f0e8, 0x3027fe4a]⟩,
   ⟨[0xcd0d3ac0, 0x34e68ab5, 0xe9bc85bd, 0xe6b0b8c1, 0x99533831, 0xe00f5052, 0xcdc83750, 0x11327da7], [0x4656a428, 0x6d991df0, 0x86228f26, 0x6a7be349, 0x3019cdc5, 0x6bf85e3d, 0x576913a4, 0x42200d2f]⟩,
   ⟨[0x707b940f, 0x420d9259, 0x3c5e39bb, 0x1bb1ffe1, 0xe40d018e, 0x83d6ba36, 0x44ec576, 0x139bd842], [0xc6de63e8, 0x3c79f8d2, 0x96f1fb0b, 0x49150b1d, 0x1358a13b, 0x66616053, 0xd5ddfd9f, 0x187ca3cf]⟩,
   ⟨[0x8d5aee84, 0x675370f, 0xdc269114, 0x30aa7d65, 0x5afc6dc1, 0x295f7fe8, 0x55674339, 0x49452029], [0xa6f209ec, 0x7eb1926b, 0xdc72c3e3, 0x5232b9d1, 0xab52141b, 0xcd788d79, 0xfdd9611f, 0x3eb561be]⟩],
  [⟨[0xe22241ad, 0x9db342c, 0x2a566653, 0x2eab852f, 0xca6e59f3, 0x970843ed, 0xa18c2d89, 0x6490013e], [0xc7a691cc, 0x52293350, 0xb2079f14, 0x6544b49d, 0x52dcf090, 0xc49c5598, 0x8817a2c7, 0x4069b6fc]⟩,
   ⟨[0xc86b40f4, 0xe4a4b0c, 0x51f6f853, 0x2b5350e1, 0x1033bec4, 0xde26fde2, 0xc0e9b971, 0x4de9d2e7], [0xd315ad57, 0x716605fd, 0x392b101a, 0x5627d732, 0x81a9f40a, 0x628edfc6, 0x5ab9c99d, 0x4bd2a96c]⟩,
   ⟨[0xbfbd288a, 0x2c8df2a1, 0xf4cf7c09, 0x260c4f1e, 0x90e796cb, 0x88a26186, 0x323e0702, 0x105acc3a], [0x667664cf, 0xa8ada467, 0x3b518622, 0x41144c1b, 0xd8b99fe1, 0x4a532b87, 0x2289c308, 0x4a51c289]⟩,
   ⟨[0x1d6f6880, 0x201dda61, 0x62029898, 0x47a964d4, 0x426c8ca5, 0xe44e2eee, 0x9625dba, 0x2a51821], [0xb45b3dfb, 0x170c626e, 0x5c8343a9, 0xfc7f1f71, 0xe549f040, 0xe6cf246f, 0x2f903ace, 0x4acf60ae]⟩,
   ⟨[0x81c807ec, 0x91715352, 0x47174a58, 0x72ac60c3, 0xa0f12f61, 0xad62d06f, 0xaa899c0d, 0x325c2792], [0x9d8ba267, 0x53a1e392, 0xcdaccb05, 0x5dc088a5, 0x5025cb69, 0x5bb9127f, 0x69214616, 0x25d2b42e]⟩,
   ⟨[0xddb55121, 0x4de5d58a, 0x84de0677, 0x688aa2f5, 0x63aa25e0, 0xf7925a39, 0x85d4dea5, 0x4fb42fc7], [0x8f134390, 0x957b933b, 0x4b9bf8c2, 0xb360dd2c, 0xffff96cd, 0x45e6767f, 0x1e01d5c3, 0x26d0a6a9]⟩,
   ⟨[0x5a0a98ea, 0xc7fc5714, 0xe7535af6, 0xdbb06f30, 0xdf4acd0d, 0x555b22e3, 0x2efd2fbe, 0x3a011aaf], [0xe9166b20, 0x341c7733, 0xfb19590a, 0x84619e8e, 0x10574c96, 0x8ef989fd, 0xf55f9a2, 0x61acfaae]⟩,
   ⟨[0x6deab094, 0x8c8a33f2, 0x96022ebc, 0x4a8e5d9f, 0x7dda92e8, 0xa10df82c, 0xd1cf3815, 0x33a19462], [0xa489d67f, 0xe3ff8e43, 0x225064aa, 0xd4b6136f, 0x92f5e662, 0xe1721d2a, 0xa90a33c6, 0x4c4f03d7]⟩,
   ⟨[0xa3463b4a, 0x70885b35, 0xdf9d0194, 0x974bc40e, 0x273957f4, 0x1af71e18, 0x9900cb0d, 0x58ef684b], [0x20a49a4a, 0xb09970c8, 0x42067458, 0x3f28403f, 0xbd7d1ad5, 0x153ff2c4, 0xe97a90f7, 0x7912cc2e]⟩,
   ⟨[0x8f034d9f, 0xf653df59, 0x1c409ccf, 0xca167177, 0x175f3583, 0x21f47005, 0xfaafb66f, 0x13b8a94b], [0x96052c8d, 0x64534ee3, 0x8d674024, 0x9304dd1, 0xd7a7e2a, 0xeb468ac3, 0xcd62052c, 0x40347256]⟩,
   ⟨[0xfff11c0e, 0xf089165, 0x8d69a45c, 0x383562c9, 0x3125fe61, 0x7ab3ef9d, 0xe0735f3a, 0x32c042bc], [0x4e268d91, 0x420077c8, 0x44695b4f, 0x7fb42082, 0x448a133e, 0xfa83216f, 0x93062eb3, 0x1c660607]⟩,
   ⟨[0xef9e04de, 0xa0fcbaca, 0x5b86f69a, 0xaef9eecb, 0xc39d4c99, 0x73d2e95f, 0x923a5ba8, 0x98c74f7], [0x4f68decf, 0x5b8c95c8, 0x58976551, 0xcff2e101, 0xbe5caf91, 0x5032ae48, 0xe09bc8ae, 0x5ccb9008]⟩,
   ⟨[0x3714d3bf, 0x41a38f20, 0x17366520, 0x24136533, 0xfae17b01, 0xf12f314c, 0xfc9ad43b, 0x4aa0c969], [0x8bbac026, 0xd8ab5f72, 0x526992dc, 0x35128269, 0xd19880aa, 0xa2ef6e44, 0xdbf47628, 0x28bb3623]⟩,
   ⟨[0x3ba25c35, 0x294742ba, 0x61555b7, 0x39d3bc9b, 0xde6ea1a0, 0x944e3abc, 0x57ebd394, 0x4fdc6415], [0xe981e649, 0xb615c1da, 0x8be3c95f, 0xaf7edb34, 0x71f7221f, 0x38573ae8, 0x668cf414, 0x1b30ff04]⟩,
   ⟨[0xa57a9a4e, 0x48eff6a2, 0x74a59c19, 0x4ba2f73, 0x6779c5da, 0x5fde389d, 0x6612f160, 0x258e2b24], [0x6d116d41, 0xce8d7a0b, 0xee2706c8, 0xaf660436, 0xf81d6398, 0xffad6fe9, 0x14ba128a, 0x4fe5ec54]⟩,
   ⟨[0xbd4b886c, 0x7d5e8299, 0xdb0db148, 0x5403a46e, 0x76a808d7, 0x32f49fc0, 0xd3b9a641, 0x6d483fd7], [0x3952c70f, 0x731df122, 0xcb5e6081, 0xb5cabac1, 0x7afa8f59, 0x12fa297d, 0x6ac91952, 0x3272360a]⟩]]

/-- `lut_cmb[j][k]`. -/
def lut_cmb (j k : Nat) : AffW (List Nat) := (lut_data.getD j []).getD k ⟨[], []⟩

end Gost.Ecp_CryptoPro_B_32

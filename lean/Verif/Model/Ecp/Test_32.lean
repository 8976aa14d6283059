import Verif.Model.FiatField

/-!
# The functions, constants and table of `/repo/ecp_id_GostR3410_2001_TestParamSet.c`

32 bit version of the file (`__SIZEOF_INT128__` is not defined).  Generated by `tools/mkfiat.py`, statement by statement;
see `Verif/Model/Fiat.lean` for the meaning.  All line numbers refer to this file.
-/

namespace Gost.Ecp_Test_32

set_option maxRecDepth 100000

/-- `fiat_id_GostR3410_2001_TestParamSet_mul`, lines 4548-5708. -/
def mul : CProg := ⟨[
  .set (.a 1), .set (.a 2), .set (.a 3), .set (.a 4), .set (.a 5), .set (.a 6), .set (.a 7), .set (.a 0), .mulx 32 (.x 8) (.b 7),
  .mulx 32 (.x 8) (.b 6), .mulx 32 (.x 8) (.b 5), .mulx 32 (.x 8) (.b 4), .mulx 32 (.x 8) (.b 3), .mulx 32 (.x 8) (.b 2),
  .mulx 32 (.x 8) (.b 1), .mulx 32 (.x 8) (.b 0), .adc 64 32 (.c 0) (.x 24) (.x 21), .adc 64 32 (.x 26) (.x 22) (.x 19),
  .adc 64 32 (.x 28) (.x 20) (.x 17), .adc 64 32 (.x 30) (.x 18) (.x 15), .adc 64 32 (.x 32) (.x 16) (.x 13),
  .adc 64 32 (.x 34) (.x 14) (.x 11), .adc 64 32 (.x 36) (.x 12) (.x 9), .set (.add 32 (.x 38) (.x 10)), .mulx 32 (.x 23) (.c 0x883b2b2f),
  .mulx 32 (.x 40) (.c 0x80000000), .mulx 32 (.x 40) (.c 0x431), .adc 64 32 (.c 0) (.x 23) (.x 44), .adc 64 32 (.x 47) (.x 25) (.x 45),
  .adc 64 32 (.x 49) (.x 27) (.c 0), .adc 64 32 (.x 51) (.x 29) (.c 0), .adc 64 32 (.x 53) (.x 31) (.c 0),
  .adc 64 32 (.x 55) (.x 33) (.c 0), .adc 64 32 (.x 57) (.x 35) (.c 0), .adc 64 32 (.x 59) (.x 37) (.x 42),
  .adc 64 32 (.x 61) (.x 39) (.x 43), .mulx 32 (.x 1) (.b 7), .mulx 32 (.x 1) (.b 6), .mulx 32 (.x 1) (.b 5), .mulx 32 (.x 1) (.b 4),
  .mulx 32 (.x 1) (.b 3), .mulx 32 (.x 1) (.b 2), .mulx 32 (.x 1) (.b 1), .mulx 32 (.x 1) (.b 0), .adc 64 32 (.c 0) (.x 79) (.x 76),
  .adc 64 32 (.x 81) (.x 77) (.x 74), .adc 64 32 (.x 83) (.x 75) (.x 72), .adc 64 32 (.x 85) (.x 73) (.x 70),
  .adc 64 32 (.x 87) (.x 71) (.x 68), .adc 64 32 (.x 89) (.x 69) (.x 66), .adc 64 32 (.x 91) (.x 67) (.x 64),
  .set (.add 32 (.x 93) (.x 65)), .adc 64 32 (.c 0) (.x 48) (.x 78), .adc 64 32 (.x 96) (.x 50) (.x 80), .adc 64 32 (.x 98) (.x 52) (.x 82),
  .adc 64 32 (.x 100) (.x 54) (.x 84), .adc 64 32 (.x 102) (.x 56) (.x 86), .adc 64 32 (.x 104) (.x 58) (.x 88),
  .adc 64 32 (.x 106) (.x 60) (.x 90), .adc 64 32 (.x 108) (.x 62) (.x 92), .adc 64 32 (.x 110) (.x 63) (.x 94),
  .mulx 32 (.x 95) (.c 0x883b2b2f), .mulx 32 (.x 113) (.c 0x80000000), .mulx 32 (.x 113) (.c 0x431), .adc 64 32 (.c 0) (.x 95) (.x 117),
  .adc 64 32 (.x 120) (.x 97) (.x 118), .adc 64 32 (.x 122) (.x 99) (.c 0), .adc 64 32 (.x 124) (.x 101) (.c 0),
  .adc 64 32 (.x 126) (.x 103) (.c 0), .adc 64 32 (.x 128) (.x 105) (.c 0), .adc 64 32 (.x 130) (.x 107) (.c 0),
  .adc 64 32 (.x 132) (.x 109) (.x 115), .adc 64 32 (.x 134) (.x 111) (.x 116), .set (.add 32 (.x 136) (.x 112)), .mulx 32 (.x 2) (.b 7),
  .mulx 32 (.x 2) (.b 6), .mulx 32 (.x 2) (.b 5), .mulx 32 (.x 2) (.b 4), .mulx 32 (.x 2) (.b 3), .mulx 32 (.x 2) (.b 2),
  .mulx 32 (.x 2) (.b 1), .mulx 32 (.x 2) (.b 0), .adc 64 32 (.c 0) (.x 153) (.x 150), .adc 64 32 (.x 155) (.x 151) (.x 148),
  .adc 64 32 (.x 157) (.x 149) (.x 146), .adc 64 32 (.x 159) (.x 147) (.x 144), .adc 64 32 (.x 161) (.x 145) (.x 142),
  .adc 64 32 (.x 163) (.x 143) (.x 140), .adc 64 32 (.x 165) (.x 141) (.x 138), .set (.add 32 (.x 167) (.x 139)),
  .adc 64 32 (.c 0) (.x 121) (.x 152), .adc 64 32 (.x 170) (.x 123) (.x 154), .adc 64 32 (.x 172) (.x 125) (.x 156),
  .adc 64 32 (.x 174) (.x 127) (.x 158), .adc 64 32 (.x 176) (.x 129) (.x 160), .adc 64 32 (.x 178) (.x 131) (.x 162),
  .adc 64 32 (.x 180) (.x 133) (.x 164), .adc 64 32 (.x 182) (.x 135) (.x 166), .adc 64 32 (.x 184) (.x 137) (.x 168),
  .mulx 32 (.x 169) (.c 0x883b2b2f), .mulx 32 (.x 187) (.c 0x80000000), .mulx 32 (.x 187) (.c 0x431), .adc 64 32 (.c 0) (.x 169) (.x 191),
  .adc 64 32 (.x 194) (.x 171) (.x 192), .adc 64 32 (.x 196) (.x 173) (.c 0), .adc 64 32 (.x 198) (.x 175) (.c 0),
  .adc 64 32 (.x 200) (.x 177) (.c 0), .adc 64 32 (.x 202) (.x 179) (.c 0), .adc 64 32 (.x 204) (.x 181) (.c 0),
  .adc 64 32 (.x 206) (.x 183) (.x 189), .adc 64 32 (.x 208) (.x 185) (.x 190), .set (.add 32 (.x 210) (.x 186)), .mulx 32 (.x 3) (.b 7),
  .mulx 32 (.x 3) (.b 6), .mulx 32 (.x 3) (.b 5), .mulx 32 (.x 3) (.b 4), .mulx 32 (.x 3) (.b 3), .mulx 32 (.x 3) (.b 2),
  .mulx 32 (.x 3) (.b 1), .mulx 32 (.x 3) (.b 0), .adc 64 32 (.c 0) (.x 227) (.x 224), .adc 64 32 (.x 229) (.x 225) (.x 222),
  .adc 64 32 (.x 231) (.x 223) (.x 220), .adc 64 32 (.x 233) (.x 221) (.x 218), .adc 64 32 (.x 235) (.x 219) (.x 216),
  .adc 64 32 (.x 237) (.x 217) (.x 214), .adc 64 32 (.x 239) (.x 215) (.x 212), .set (.add 32 (.x 241) (.x 213)),
  .adc 64 32 (.c 0) (.x 195) (.x 226), .adc 64 32 (.x 244) (.x 197) (.x 228), .adc 64 32 (.x 246) (.x 199) (.x 230),
  .adc 64 32 (.x 248) (.x 201) (.x 232), .adc 64 32 (.x 250) (.x 203) (.x 234), .adc 64 32 (.x 252) (.x 205) (.x 236),
  .adc 64 32 (.x 254) (.x 207) (.x 238), .adc 64 32 (.x 256) (.x 209) (.x 240), .adc 64 32 (.x 258) (.x 211) (.x 242),
  .mulx 32 (.x 243) (.c 0x883b2b2f), .mulx 32 (.x 261) (.c 0x80000000), .mulx 32 (.x 261) (.c 0x431), .adc 64 32 (.c 0) (.x 243) (.x 265),
  .adc 64 32 (.x 268) (.x 245) (.x 266), .adc 64 32 (.x 270) (.x 247) (.c 0), .adc 64 32 (.x 272) (.x 249) (.c 0),
  .adc 64 32 (.x 274) (.x 251) (.c 0), .adc 64 32 (.x 276) (.x 253) (.c 0), .adc 64 32 (.x 278) (.x 255) (.c 0),
  .adc 64 32 (.x 280) (.x 257) (.x 263), .adc 64 32 (.x 282) (.x 259) (.x 264), .set (.add 32 (.x 284) (.x 260)), .mulx 32 (.x 4) (.b 7),
  .mulx 32 (.x 4) (.b 6), .mulx 32 (.x 4) (.b 5), .mulx 32 (.x 4) (.b 4), .mulx 32 (.x 4) (.b 3), .mulx 32 (.x 4) (.b 2),
  .mulx 32 (.x 4) (.b 1), .mulx 32 (.x 4) (.b 0), .adc 64 32 (.c 0) (.x 301) (.x 298), .adc 64 32 (.x 303) (.x 299) (.x 296),
  .adc 64 32 (.x 305) (.x 297) (.x 294), .adc 64 32 (.x 307) (.x 295) (.x 292), .adc 64 32 (.x 309) (.x 293) (.x 290),
  .adc 64 32 (.x 311) (.x 291) (.x 288), .adc 64 32 (.x 313) (.x 289) (.x 286), .set (.add 32 (.x 315) (.x 287)),
  .adc 64 32 (.c 0) (.x 269) (.x 300), .adc 64 32 (.x 318) (.x 271) (.x 302), .adc 64 32 (.x 320) (.x 273) (.x 304),
  .adc 64 32 (.x 322) (.x 275) (.x 306), .adc 64 32 (.x 324) (.x 277) (.x 308), .adc 64 32 (.x 326) (.x 279) (.x 310),
  .adc 64 32 (.x 328) (.x 281) (.x 312), .adc 64 32 (.x 330) (.x 283) (.x 314), .adc 64 32 (.x 332) (.x 285) (.x 316),
  .mulx 32 (.x 317) (.c 0x883b2b2f), .mulx 32 (.x 335) (.c 0x80000000), .mulx 32 (.x 335) (.c 0x431), .adc 64 32 (.c 0) (.x 317) (.x 339),
  .adc 64 32 (.x 342) (.x 319) (.x 340), .adc 64 32 (.x 344) (.x 321) (.c 0), .adc 64 32 (.x 346) (.x 323) (.c 0),
  .adc 64 32 (.x 348) (.x 325) (.c 0), .adc 64 32 (.x 350) (.x 327) (.c 0), .adc 64 32 (.x 352) (.x 329) (.c 0),
  .adc 64 32 (.x 354) (.x 331) (.x 337), .adc 64 32 (.x 356) (.x 333) (.x 338), .set (.add 32 (.x 358) (.x 334)), .mulx 32 (.x 5) (.b 7),
  .mulx 32 (.x 5) (.b 6), .mulx 32 (.x 5) (.b 5), .mulx 32 (.x 5) (.b 4), .mulx 32 (.x 5) (.b 3), .mulx 32 (.x 5) (.b 2),
  .mulx 32 (.x 5) (.b 1), .mulx 32 (.x 5) (.b 0), .adc 64 32 (.c 0) (.x 375) (.x 372), .adc 64 32 (.x 377) (.x 373) (.x 370),
  .adc 64 32 (.x 379) (.x 371) (.x 368), .adc 64 32 (.x 381) (.x 369) (.x 366), .adc 64 32 (.x 383) (.x 367) (.x 364),
  .adc 64 32 (.x 385) (.x 365) (.x 362), .adc 64 32 (.x 387) (.x 363) (.x 360), .set (.add 32 (.x 389) (.x 361)),
  .adc 64 32 (.c 0) (.x 343) (.x 374), .adc 64 32 (.x 392) (.x 345) (.x 376), .adc 64 32 (.x 394) (.x 347) (.x 378),
  .adc 64 32 (.x 396) (.x 349) (.x 380), .adc 64 32 (.x 398) (.x 351) (.x 382), .adc 64 32 (.x 400) (.x 353) (.x 384),
  .adc 64 32 (.x 402) (.x 355) (.x 386), .adc 64 32 (.x 404) (.x 357) (.x 388), .adc 64 32 (.x 406) (.x 359) (.x 390),
  .mulx 32 (.x 391) (.c 0x883b2b2f), .mulx 32 (.x 409) (.c 0x80000000), .mulx 32 (.x 409) (.c 0x431), .adc 64 32 (.c 0) (.x 391) (.x 413),
  .adc 64 32 (.x 416) (.x 393) (.x 414), .adc 64 32 (.x 418) (.x 395) (.c 0), .adc 64 32 (.x 420) (.x 397) (.c 0),
  .adc 64 32 (.x 422) (.x 399) (.c 0), .adc 64 32 (.x 424) (.x 401) (.c 0), .adc 64 32 (.x 426) (.x 403) (.c 0),
  .adc 64 32 (.x 428) (.x 405) (.x 411), .adc 64 32 (.x 430) (.x 407) (.x 412), .set (.add 32 (.x 432) (.x 408)), .mulx 32 (.x 6) (.b 7),
  .mulx 32 (.x 6) (.b 6), .mulx 32 (.x 6) (.b 5), .mulx 32 (.x 6) (.b 4), .mulx 32 (.x 6) (.b 3), .mulx 32 (.x 6) (.b 2),
  .mulx 32 (.x 6) (.b 1), .mulx 32 (.x 6) (.b 0), .adc 64 32 (.c 0) (.x 449) (.x 446), .adc 64 32 (.x 451) (.x 447) (.x 444),
  .adc 64 32 (.x 453) (.x 445) (.x 442), .adc 64 32 (.x 455) (.x 443) (.x 440), .adc 64 32 (.x 457) (.x 441) (.x 438),
  .adc 64 32 (.x 459) (.x 439) (.x 436), .adc 64 32 (.x 461) (.x 437) (.x 434), .set (.add 32 (.x 463) (.x 435)),
  .adc 64 32 (.c 0) (.x 417) (.x 448), .adc 64 32 (.x 466) (.x 419) (.x 450), .adc 64 32 (.x 468) (.x 421) (.x 452),
  .adc 64 32 (.x 470) (.x 423) (.x 454), .adc 64 32 (.x 472) (.x 425) (.x 456), .adc 64 32 (.x 474) (.x 427) (.x 458),
  .adc 64 32 (.x 476) (.x 429) (.x 460), .adc 64 32 (.x 478) (.x 431) (.x 462), .adc 64 32 (.x 480) (.x 433) (.x 464),
  .mulx 32 (.x 465) (.c 0x883b2b2f), .mulx 32 (.x 483) (.c 0x80000000), .mulx 32 (.x 483) (.c 0x431), .adc 64 32 (.c 0) (.x 465) (.x 487),
  .adc 64 32 (.x 490) (.x 467) (.x 488), .adc 64 32 (.x 492) (.x 469) (.c 0), .adc 64 32 (.x 494) (.x 471) (.c 0),
  .adc 64 32 (.x 496) (.x 473) (.c 0), .adc 64 32 (.x 498) (.x 475) (.c 0), .adc 64 32 (.x 500) (.x 477) (.c 0),
  .adc 64 32 (.x 502) (.x 479) (.x 485), .adc 64 32 (.x 504) (.x 481) (.x 486), .set (.add 32 (.x 506) (.x 482)), .mulx 32 (.x 7) (.b 7),
  .mulx 32 (.x 7) (.b 6), .mulx 32 (.x 7) (.b 5), .mulx 32 (.x 7) (.b 4), .mulx 32 (.x 7) (.b 3), .mulx 32 (.x 7) (.b 2),
  .mulx 32 (.x 7) (.b 1), .mulx 32 (.x 7) (.b 0), .adc 64 32 (.c 0) (.x 523) (.x 520), .adc 64 32 (.x 525) (.x 521) (.x 518),
  .adc 64 32 (.x 527) (.x 519) (.x 516), .adc 64 32 (.x 529) (.x 517) (.x 514), .adc 64 32 (.x 531) (.x 515) (.x 512),
  .adc 64 32 (.x 533) (.x 513) (.x 510), .adc 64 32 (.x 535) (.x 511) (.x 508), .set (.add 32 (.x 537) (.x 509)),
  .adc 64 32 (.c 0) (.x 491) (.x 522), .adc 64 32 (.x 540) (.x 493) (.x 524), .adc 64 32 (.x 542) (.x 495) (.x 526),
  .adc 64 32 (.x 544) (.x 497) (.x 528), .adc 64 32 (.x 546) (.x 499) (.x 530), .adc 64 32 (.x 548) (.x 501) (.x 532),
  .adc 64 32 (.x 550) (.x 503) (.x 534), .adc 64 32 (.x 552) (.x 505) (.x 536), .adc 64 32 (.x 554) (.x 507) (.x 538),
  .mulx 32 (.x 539) (.c 0x883b2b2f), .mulx 32 (.x 557) (.c 0x80000000), .mulx 32 (.x 557) (.c 0x431), .adc 64 32 (.c 0) (.x 539) (.x 561),
  .adc 64 32 (.x 564) (.x 541) (.x 562), .adc 64 32 (.x 566) (.x 543) (.c 0), .adc 64 32 (.x 568) (.x 545) (.c 0),
  .adc 64 32 (.x 570) (.x 547) (.c 0), .adc 64 32 (.x 572) (.x 549) (.c 0), .adc 64 32 (.x 574) (.x 551) (.c 0),
  .adc 64 32 (.x 576) (.x 553) (.x 559), .adc 64 32 (.x 578) (.x 555) (.x 560), .set (.add 32 (.x 580) (.x 556)),
  .sbb 64 32 (.c 0) (.x 565) (.c 0x431), .sbb 64 32 (.x 583) (.x 567) (.c 0), .sbb 64 32 (.x 585) (.x 569) (.c 0),
  .sbb 64 32 (.x 587) (.x 571) (.c 0), .sbb 64 32 (.x 589) (.x 573) (.c 0), .sbb 64 32 (.x 591) (.x 575) (.c 0),
  .sbb 64 32 (.x 593) (.x 577) (.c 0), .sbb 64 32 (.x 595) (.x 579) (.c 0x80000000), .sbb 64 32 (.x 597) (.x 581) (.c 0),
  .cmov 32 (.x 599) (.x 582) (.x 565), .cmov 32 (.x 599) (.x 584) (.x 567), .cmov 32 (.x 599) (.x 586) (.x 569),
  .cmov 32 (.x 599) (.x 588) (.x 571), .cmov 32 (.x 599) (.x 590) (.x 573), .cmov 32 (.x 599) (.x 592) (.x 575),
  .cmov 32 (.x 599) (.x 594) (.x 577), .cmov 32 (.x 599) (.x 596) (.x 579)], [600, 601, 602, 603, 604, 605, 606, 607]⟩

/-- `fiat_id_GostR3410_2001_TestParamSet_square`, lines 5723-6882. -/
def square : CProg := ⟨[
  .set (.a 1), .set (.a 2), .set (.a 3), .set (.a 4), .set (.a 5), .set (.a 6), .set (.a 7), .set (.a 0), .mulx 32 (.x 8) (.a 7),
  .mulx 32 (.x 8) (.a 6), .mulx 32 (.x 8) (.a 5), .mulx 32 (.x 8) (.a 4), .mulx 32 (.x 8) (.a 3), .mulx 32 (.x 8) (.a 2),
  .mulx 32 (.x 8) (.a 1), .mulx 32 (.x 8) (.a 0), .adc 64 32 (.c 0) (.x 24) (.x 21), .adc 64 32 (.x 26) (.x 22) (.x 19),
  .adc 64 32 (.x 28) (.x 20) (.x 17), .adc 64 32 (.x 30) (.x 18) (.x 15), .adc 64 32 (.x 32) (.x 16) (.x 13),
  .adc 64 32 (.x 34) (.x 14) (.x 11), .adc 64 32 (.x 36) (.x 12) (.x 9), .set (.add 32 (.x 38) (.x 10)), .mulx 32 (.x 23) (.c 0x883b2b2f),
  .mulx 32 (.x 40) (.c 0x80000000), .mulx 32 (.x 40) (.c 0x431), .adc 64 32 (.c 0) (.x 23) (.x 44), .adc 64 32 (.x 47) (.x 25) (.x 45),
  .adc 64 32 (.x 49) (.x 27) (.c 0), .adc 64 32 (.x 51) (.x 29) (.c 0), .adc 64 32 (.x 53) (.x 31) (.c 0),
  .adc 64 32 (.x 55) (.x 33) (.c 0), .adc 64 32 (.x 57) (.x 35) (.c 0), .adc 64 32 (.x 59) (.x 37) (.x 42),
  .adc 64 32 (.x 61) (.x 39) (.x 43), .mulx 32 (.x 1) (.a 7), .mulx 32 (.x 1) (.a 6), .mulx 32 (.x 1) (.a 5), .mulx 32 (.x 1) (.a 4),
  .mulx 32 (.x 1) (.a 3), .mulx 32 (.x 1) (.a 2), .mulx 32 (.x 1) (.a 1), .mulx 32 (.x 1) (.a 0), .adc 64 32 (.c 0) (.x 79) (.x 76),
  .adc 64 32 (.x 81) (.x 77) (.x 74), .adc 64 32 (.x 83) (.x 75) (.x 72), .adc 64 32 (.x 85) (.x 73) (.x 70),
  .adc 64 32 (.x 87) (.x 71) (.x 68), .adc 64 32 (.x 89) (.x 69) (.x 66), .adc 64 32 (.x 91) (.x 67) (.x 64),
  .set (.add 32 (.x 93) (.x 65)), .adc 64 32 (.c 0) (.x 48) (.x 78), .adc 64 32 (.x 96) (.x 50) (.x 80), .adc 64 32 (.x 98) (.x 52) (.x 82),
  .adc 64 32 (.x 100) (.x 54) (.x 84), .adc 64 32 (.x 102) (.x 56) (.x 86), .adc 64 32 (.x 104) (.x 58) (.x 88),
  .adc 64 32 (.x 106) (.x 60) (.x 90), .adc 64 32 (.x 108) (.x 62) (.x 92), .adc 64 32 (.x 110) (.x 63) (.x 94),
  .mulx 32 (.x 95) (.c 0x883b2b2f), .mulx 32 (.x 113) (.c 0x80000000), .mulx 32 (.x 113) (.c 0x431), .adc 64 32 (.c 0) (.x 95) (.x 117),
  .adc 64 32 (.x 120) (.x 97) (.x 118), .adc 64 32 (.x 122) (.x 99) (.c 0), .adc 64 32 (.x 124) (.x 101) (.c 0),
  .adc 64 32 (.x 126) (.x 103) (.c 0), .adc 64 32 (.x 128) (.x 105) (.c 0), .adc 64 32 (.x 130) (.x 107) (.c 0),
  .adc 64 32 (.x 132) (.x 109) (.x 115), .adc 64 32 (.x 134) (.x 111) (.x 116), .set (.add 32 (.x 136) (.x 112)), .mulx 32 (.x 2) (.a 7),
  .mulx 32 (.x 2) (.a 6), .mulx 32 (.x 2) (.a 5), .mulx 32 (.x 2) (.a 4), .mulx 32 (.x 2) (.a 3), .mulx 32 (.x 2) (.a 2),
  .mulx 32 (.x 2) (.a 1), .mulx 32 (.x 2) (.a 0), .adc 64 32 (.c 0) (.x 153) (.x 150), .adc 64 32 (.x 155) (.x 151) (.x 148),
  .adc 64 32 (.x 157) (.x 149) (.x 146), .adc 64 32 (.x 159) (.x 147) (.x 144), .adc 64 32 (.x 161) (.x 145) (.x 142),
  .adc 64 32 (.x 163) (.x 143) (.x 140), .adc 64 32 (.x 165) (.x 141) (.x 138), .set (.add 32 (.x 167) (.x 139)),
  .adc 64 32 (.c 0) (.x 121) (.x 152), .adc 64 32 (.x 170) (.x 123) (.x 154), .adc 64 32 (.x 172) (.x 125) (.x 156),
  .adc 64 32 (.x 174) (.x 127) (.x 158), .adc 64 32 (.x 176) (.x 129) (.x 160), .adc 64 32 (.x 178) (.x 131) (.x 162),
  .adc 64 32 (.x 180) (.x 133) (.x 164), .adc 64 32 (.x 182) (.x 135) (.x 166), .adc 64 32 (.x 184) (.x 137) (.x 168),
  .mulx 32 (.x 169) (.c 0x883b2b2f), .mulx 32 (.x 187) (.c 0x80000000), .mulx 32 (.x 187) (.c 0x431), .adc 64 32 (.c 0) (.x 169) (.x 191),
  .adc 64 32 (.x 194) (.x 171) (.x 192), .adc 64 32 (.x 196) (.x 173) (.c 0), .adc 64 32 (.x 198) (.x 175) (.c 0),
  .adc 64 32 (.x 200) (.x 177) (.c 0), .adc 64 32 (.x 202) (.x 179) (.c 0), .adc 64 32 (.x 204) (.x 181) (.c 0),
  .adc 64 32 (.x 206) (.x 183) (.x 189), .adc 64 32 (.x 208) (.x 185) (.x 190), .set (.add 32 (.x 210) (.x 186)), .mulx 32 (.x 3) (.a 7),
  .mulx 32 (.x 3) (.a 6), .mulx 32 (.x 3) (.a 5), .mulx 32 (.x 3) (.a 4), .mulx 32 (.x 3) (.a 3), .mulx 32 (.x 3) (.a 2),
  .mulx 32 (.x 3) (.a 1), .mulx 32 (.x 3) (.a 0), .adc 64 32 (.c 0) (.x 227) (.x 224), .adc 64 32 (.x 229) (.x 225) (.x 222),
  .adc 64 32 (.x 231) (.x 223) (.x 220), .adc 64 32 (.x 233) (.x 221) (.x 218), .adc 64 32 (.x 235) (.x 219) (.x 216),
  .adc 64 32 (.x 237) (.x 217) (.x 214), .adc 64 32 (.x 239) (.x 215) (.x 212), .set (.add 32 (.x 241) (.x 213)),
  .adc 64 32 (.c 0) (.x 195) (.x 226), .adc 64 32 (.x 244) (.x 197) (.x 228), .adc 64 32 (.x 246) (.x 199) (.x 230),
  .adc 64 32 (.x 248) (.x 201) (.x 232), .adc 64 32 (.x 250) (.x 203) (.x 234), .adc 64 32 (.x 252) (.x 205) (.x 236),
  .adc 64 32 (.x 254) (.x 207) (.x 238), .adc 64 32 (.x 256) (.x 209) (.x 240), .adc 64 32 (.x 258) (.x 211) (.x 242),
  .mulx 32 (.x 243) (.c 0x883b2b2f), .mulx 32 (.x 261) (.c 0x80000000), .mulx 32 (.x 261) (.c 0x431), .adc 64 32 (.c 0) (.x 243) (.x 265),
  .adc 64 32 (.x 268) (.x 245) (.x 266), .adc 64 32 (.x 270) (.x 247) (.c 0), .adc 64 32 (.x 272) (.x 249) (.c 0),
  .adc 64 32 (.x 274) (.x 251) (.c 0), .adc 64 32 (.x 276) (.x 253) (.c 0), .adc 64 32 (.x 278) (.x 255) (.c 0),
  .adc 64 32 (.x 280) (.x 257) (.x 263), .adc 64 32 (.x 282) (.x 259) (.x 264), .set (.add 32 (.x 284) (.x 260)), .mulx 32 (.x 4) (.a 7),
  .mulx 32 (.x 4) (.a 6), .mulx 32 (.x 4) (.a 5), .mulx 32 (.x 4) (.a 4), .mulx 32 (.x 4) (.a 3), .mulx 32 (.x 4) (.a 2),
  .mulx 32 (.x 4) (.a 1), .mulx 32 (.x 4) (.a 0), .adc 64 32 (.c 0) (.x 301) (.x 298), .adc 64 32 (.x 303) (.x 299) (.x 296),
  .adc 64 32 (.x 305) (.x 297) (.x 294), .adc 64 32 (.x 307) (.x 295) (.x 292), .adc 64 32 (.x 309) (.x 293) (.x 290),
  .adc 64 32 (.x 311) (.x 291) (.x 288), .adc 64 32 (.x 313) (.x 289) (.x 286), .set (.add 32 (.x 315) (.x 287)),
  .adc 64 32 (.c 0) (.x 269) (.x 300), .adc 64 32 (.x 318) (.x 271) (.x 302), .adc 64 32 (.x 320) (.x 273) (.x 304),
  .adc 64 32 (.x 322) (.x 275) (.x 306), .adc 64 32 (.x 324) (.x 277) (.x 308), .adc 64 32 (.x 326) (.x 279) (.x 310),
  .adc 64 32 (.x 328) (.x 281) (.x 312), .adc 64 32 (.x 330) (.x 283) (.x 314), .adc 64 32 (.x 332) (.x 285) (.x 316),
  .mulx 32 (.x 317) (.c 0x883b2b2f), .mulx 32 (.x 335) (.c 0x80000000), .mulx 32 (.x 335) (.c 0x431), .adc 64 32 (.c 0) (.x 317) (.x 339),
  .adc 64 32 (.x 342) (.x 319) (.x 340), .adc 64 32 (.x 344) (.x 321) (.c 0), .adc 64 32 (.x 346) (.x 323) (.c 0),
  .adc 64 32 (.x 348) (.x 325) (.c 0), .adc 64 32 (.x 350) (.x 327) (.c 0), .adc 64 32 (.x 352) (.x 329) (.c 0),
  .adc 64 32 (.x 354) (.x 331) (.x 337), .adc 64 32 (.x 356) (.x 333) (.x 338), .set (.add 32 (.x 358) (.x 334)), .mulx 32 (.x 5) (.a 7),
  .mulx 32 (.x 5) (.a 6), .mulx 32 (.x 5) (.a 5), .mulx 32 (.x 5) (.a 4), .mulx 32 (.x 5) (.a 3), .mulx 32 (.x 5) (.a 2),
  .mulx 32 (.x 5) (.a 1), .mulx 32 (.x 5) (.a 0), .adc 64 32 (.c 0) (.x 375) (.x 372), .adc 64 32 (.x 377) (.x 373) (.x 370),
  .adc 64 32 (.x 379) (.x 371) (.x 368), .adc 64 32 (.x 381) (.x 369) (.x 366), .adc 64 32 (.x 383) (.x 367) (.x 364),
  .adc 64 32 (.x 385) (.x 365) (.x 362), .adc 64 32 (.x 387) (.x 363) (.x 360), .set (.add 32 (.x 389) (.x 361)),
  .adc 64 32 (.c 0) (.x 343) (.x 374), .adc 64 32 (.x 392) (.x 345) (.x 376), .adc 64 32 (.x 394) (.x 347) (.x 378),
  .adc 64 32 (.x 396) (.x 349) (.x 380), .adc 64 32 (.x 398) (.x 351) (.x 382), .adc 64 32 (.x 400) (.x 353) (.x 384),
  .adc 64 32 (.x 402) (.x 355) (.x 386), .adc 64 32 (.x 404) (.x 357) (.x 388), .adc 64 32 (.x 406) (.x 359) (.x 390),
  .mulx 32 (.x 391) (.c 0x883b2b2f), .mulx 32 (.x 409) (.c 0x80000000), .mulx 32 (.x 409) (.c 0x431), .adc 64 32 (.c 0) (.x 391) (.x 413),
  .adc 64 32 (.x 416) (.x 393) (.x 414), .adc 64 32 (.x 418) (.x 395) (.c 0), .adc 64 32 (.x 420) (.x 397) (.c 0),
  .adc 64 32 (.x 422) (.x 399) (.c 0), .adc 64 32 (.x 424) (.x 401) (.c 0), .adc 64 32 (.x 426) (.x 403) (.c 0),
  .adc 64 32 (.x 428) (.x 405) (.x 411), .adc 64 32 (.x 430) (.x 407) (.x 412), .set (.add 32 (.x 432) (.x 408)), .mulx 32 (.x 6) (.a 7),
  .mulx 32 (.x 6) (.a 6), .mulx 32 (.x 6) (.a 5), .mulx 32 (.x 6) (.a 4), .mulx 32 (.x 6) (.a 3), .mulx 32 (.x 6) (.a 2),
  .mulx 32 (.x 6) (.a 1), .mulx 32 (.x 6) (.a 0), .adc 64 32 (.c 0) (.x 449) (.x 446), .adc 64 32 (.x 451) (.x 447) (.x 444),
  .adc 64 32 (.x 453) (.x 445) (.x 442), .adc 64 32 (.x 455) (.x 443) (.x 440), .adc 64 32 (.x 457) (.x 441) (.x 438),
  .adc 64 32 (.x 459) (.x 439) (.x 436), .adc 64 32 (.x 461) (.x 437) (.x 434), .set (.add 32 (.x 463) (.x 435)),
  .adc 64 32 (.c 0) (.x 417) (.x 448), .adc 64 32 (.x 466) (.x 419) (.x 450), .adc 64 32 (.x 468) (.x 421) (.x 452),
  .adc 64 32 (.x 470) (.x 423) (.x 454), .adc 64 32 (.x 472) (.x 425) (.x 456), .adc 64 32 (.x 474) (.x 427) (.x 458),
  .adc 64 32 (.x 476) (.x 429) (.x 460), .adc 64 32 (.x 478) (.x 431) (.x 462), .adc 64 32 (.x 480) (.x 433) (.x 464),
  .mulx 32 (.x 465) (.c 0x883b2b2f), .mulx 32 (.x 483) (.c 0x80000000), .mulx 32 (.x 483) (.c 0x431), .adc 64 32 (.c 0) (.x 465) (.x 487),
  .adc 64 32 (.x 490) (.x 467) (.x 488), .adc 64 32 (.x 492) (.x 469) (.c 0), .adc 64 32 (.x 494) (.x 471) (.c 0),
  .adc 64 32 (.x 496) (.x 473) (.c 0), .adc 64 32 (.x 498) (.x 475) (.c 0), .adc 64 32 (.x 500) (.x 477) (.c 0),
  .adc 64 32 (.x 502) (.x 479) (.x 485), .adc 64 32 (.x 504) (.x 481) (.x 486), .set (.add 32 (.x 506) (.x 482)), .mulx 32 (.x 7) (.a 7),
  .mulx 32 (.x 7) (.a 6), .mulx 32 (.x 7) (.a 5), .mulx 32 (.x 7) (.a 4), .mulx 32 (.x 7) (.a 3), .mulx 32 (.x 7) (.a 2),
  .mulx 32 (.x 7) (.a 1), .mulx 32 (.x 7) (.a 0), .adc 64 32 (.c 0) (.x 523) (.x 520), .adc 64 32 (.x 525) (.x 521) (.x 518),
  .adc 64 32 (.x 527) (.x 519) (.x 516), .adc 64 32 (.x 529) (.x 517) (.x 514), .adc 64 32 (.x 531) (.x 515) (.x 512),
  .adc 64 32 (.x 533) (.x 513) (.x 510), .adc 64 32 (.x 535) (.x 511) (.x 508), .set (.add 32 (.x 537) (.x 509)),
  .adc 64 32 (.c 0) (.x 491) (.x 522), .adc 64 32 (.x 540) (.x 493) (.x 524), .adc 64 32 (.x 542) (.x 495) (.x 526),
  .adc 64 32 (.x 544) (.x 497) (.x 528), .adc 64 32 (.x 546) (.x 499) (.x 530), .adc 64 32 (.x 548) (.x 501) (.x 532),
  .adc 64 32 (.x 550) (.x 503) (.x 534), .adc 64 32 (.x 552) (.x 505) (.x 536), .adc 64 32 (.x 554) (.x 507) (.x 538),
  .mulx 32 (.x 539) (.c 0x883b2b2f), .mulx 32 (.x 557) (.c 0x80000000), .mulx 32 (.x 557) (.c 0x431), .adc 64 32 (.c 0) (.x 539) (.x 561),
  .adc 64 32 (.x 564) (.x 541) (.x 562), .adc 64 32 (.x 566) (.x 543) (.c 0), .adc 64 32 (.x 568) (.x 545) (.c 0),
  .adc 64 32 (.x 570) (.x 547) (.c 0), .adc 64 32 (.x 572) (.x 549) (.c 0), .adc 64 32 (.x 574) (.x 551) (.c 0),
  .adc 64 32 (.x 576) (.x 553) (.x 559), .adc 64 32 (.x 578) (.x 555) (.x 560), .set (.add 32 (.x 580) (.x 556)),
  .sbb 64 32 (.c 0) (.x 565) (.c 0x431), .sbb 64 32 (.x 583) (.x 567) (.c 0), .sbb 64 32 (.x 585) (.x 569) (.c 0),
  .sbb 64 32 (.x 587) (.x 571) (.c 0), .sbb 64 32 (.x 589) (.x 573) (.c 0), .sbb 64 32 (.x 591) (.x 575) (.c 0),
  .sbb 64 32 (.x 593) (.x 577) (.c 0), .sbb 64 32 (.x 595) (.x 579) (.c 0x80000000), .sbb 64 32 (.x 597) (.x 581) (.c 0),
  .cmov 32 (.x 599) (.x 582) (.x 565), .cmov 32 (.x 599) (.x 584) (.x 567), .cmov 32 (.x 599) (.x 586) (.x 569),
  .cmov 32 (.x 599) (.x 588) (.x 571), .cmov 32 (.x 599) (.x 590) (.x 573), .cmov 32 (.x 599) (.x 592) (.x 575),
  .cmov 32 (.x 599) (.x 594) (.x 577), .cmov 32 (.x 599) (.x 596) (.x 579)], [600, 601, 602, 603, 604, 605, 606, 607]⟩

/-- `fiat_id_GostR3410_2001_TestParamSet_add`, lines 6899-6994. -/
def add : CProg := ⟨[
  .adc 64 32 (.c 0) (.a 0) (.b 0), .adc 64 32 (.x 2) (.a 1) (.b 1), .adc 64 32 (.x 4) (.a 2) (.b 2), .adc 64 32 (.x 6) (.a 3) (.b 3),
  .adc 64 32 (.x 8) (.a 4) (.b 4), .adc 64 32 (.x 10) (.a 5) (.b 5), .adc 64 32 (.x 12) (.a 6) (.b 6), .adc 64 32 (.x 14) (.a 7) (.b 7),
  .sbb 64 32 (.c 0) (.x 1) (.c 0x431), .sbb 64 32 (.x 18) (.x 3) (.c 0), .sbb 64 32 (.x 20) (.x 5) (.c 0), .sbb 64 32 (.x 22) (.x 7) (.c 0),
  .sbb 64 32 (.x 24) (.x 9) (.c 0), .sbb 64 32 (.x 26) (.x 11) (.c 0), .sbb 64 32 (.x 28) (.x 13) (.c 0),
  .sbb 64 32 (.x 30) (.x 15) (.c 0x80000000), .sbb 64 32 (.x 32) (.x 16) (.c 0), .cmov 32 (.x 34) (.x 17) (.x 1),
  .cmov 32 (.x 34) (.x 19) (.x 3), .cmov 32 (.x 34) (.x 21) (.x 5), .cmov 32 (.x 34) (.x 23) (.x 7), .cmov 32 (.x 34) (.x 25) (.x 9),
  .cmov 32 (.x 34) (.x 27) (.x 11), .cmov 32 (.x 34) (.x 29) (.x 13), .cmov 32 (.x 34) (.x 31) (.x 15)], [35, 36, 37, 38, 39, 40, 41, 42]⟩

/-- `fiat_id_GostR3410_2001_TestParamSet_sub`, lines 7011-7085. -/
def sub : CProg := ⟨[
  .sbb 64 32 (.c 0) (.a 0) (.b 0), .sbb 64 32 (.x 2) (.a 1) (.b 1), .sbb 64 32 (.x 4) (.a 2) (.b 2), .sbb 64 32 (.x 6) (.a 3) (.b 3),
  .sbb 64 32 (.x 8) (.a 4) (.b 4), .sbb 64 32 (.x 10) (.a 5) (.b 5), .sbb 64 32 (.x 12) (.a 6) (.b 6), .sbb 64 32 (.x 14) (.a 7) (.b 7),
  .cmov 32 (.x 16) (.c 0) (.c 0xffffffff), .adc 64 32 (.c 0) (.x 1) (.and (.x 17) (.c 0x431)), .adc 64 32 (.x 19) (.x 3) (.c 0),
  .adc 64 32 (.x 21) (.x 5) (.c 0), .adc 64 32 (.x 23) (.x 7) (.c 0), .adc 64 32 (.x 25) (.x 9) (.c 0), .adc 64 32 (.x 27) (.x 11) (.c 0),
  .adc 64 32 (.x 29) (.x 13) (.c 0), .adc 64 32 (.x 31) (.x 15) (.and (.x 17) (.c 0x80000000))], [18, 20, 22, 24, 26, 28, 30, 32]⟩

/-- `fiat_id_GostR3410_2001_TestParamSet_opp`, lines 7100-7173. -/
def opp : CProg := ⟨[
  .sbb 64 32 (.c 0) (.c 0) (.a 0), .sbb 64 32 (.x 2) (.c 0) (.a 1), .sbb 64 32 (.x 4) (.c 0) (.a 2), .sbb 64 32 (.x 6) (.c 0) (.a 3),
  .sbb 64 32 (.x 8) (.c 0) (.a 4), .sbb 64 32 (.x 10) (.c 0) (.a 5), .sbb 64 32 (.x 12) (.c 0) (.a 6), .sbb 64 32 (.x 14) (.c 0) (.a 7),
  .cmov 32 (.x 16) (.c 0) (.c 0xffffffff), .adc 64 32 (.c 0) (.x 1) (.and (.x 17) (.c 0x431)), .adc 64 32 (.x 19) (.x 3) (.c 0),
  .adc 64 32 (.x 21) (.x 5) (.c 0), .adc 64 32 (.x 23) (.x 7) (.c 0), .adc 64 32 (.x 25) (.x 9) (.c 0), .adc 64 32 (.x 27) (.x 11) (.c 0),
  .adc 64 32 (.x 29) (.x 13) (.c 0), .adc 64 32 (.x 31) (.x 15) (.and (.x 17) (.c 0x80000000))], [18, 20, 22, 24, 26, 28, 30, 32]⟩

/-- `fiat_id_GostR3410_2001_TestParamSet_from_montgomery`, lines 7188-7530. -/
def from_montgomery : CProg := ⟨[
  .set (.a 0), .mulx 32 (.x 1) (.c 0x883b2b2f), .mulx 32 (.x 2) (.c 0x80000000), .mulx 32 (.x 2) (.c 0x431),
  .adc 64 32 (.c 0) (.x 1) (.x 6), .adc 64 32 (.c 0) (.add 32 (.x 9) (.x 7)) (.a 1), .mulx 32 (.x 10) (.c 0x883b2b2f),
  .mulx 32 (.x 12) (.c 0x80000000), .mulx 32 (.x 12) (.c 0x431), .adc 64 32 (.c 0) (.x 5) (.x 14), .adc 64 32 (.c 0) (.x 10) (.x 16),
  .adc 64 32 (.c 0) (.add 32 (.add 32 (.x 21) (.x 11)) (.x 17)) (.a 2), .mulx 32 (.x 22) (.c 0x883b2b2f), .mulx 32 (.x 24) (.c 0x80000000),
  .mulx 32 (.x 24) (.c 0x431), .adc 64 32 (.c 0) (.add 32 (.x 19) (.x 15)) (.x 26), .adc 64 32 (.c 0) (.x 22) (.x 28),
  .adc 64 32 (.c 0) (.add 32 (.add 32 (.x 33) (.x 23)) (.x 29)) (.a 3), .mulx 32 (.x 34) (.c 0x883b2b2f), .mulx 32 (.x 36) (.c 0x80000000),
  .mulx 32 (.x 36) (.c 0x431), .adc 64 32 (.c 0) (.add 32 (.x 31) (.x 27)) (.x 38), .adc 64 32 (.c 0) (.x 34) (.x 40),
  .adc 64 32 (.c 0) (.add 32 (.add 32 (.x 45) (.x 35)) (.x 41)) (.a 4), .mulx 32 (.x 46) (.c 0x883b2b2f), .mulx 32 (.x 48) (.c 0x80000000),
  .mulx 32 (.x 48) (.c 0x431), .adc 64 32 (.c 0) (.add 32 (.x 43) (.x 39)) (.x 50), .adc 64 32 (.c 0) (.x 46) (.x 52),
  .adc 64 32 (.c 0) (.add 32 (.add 32 (.x 57) (.x 47)) (.x 53)) (.a 5), .mulx 32 (.x 58) (.c 0x883b2b2f), .mulx 32 (.x 60) (.c 0x80000000),
  .mulx 32 (.x 60) (.c 0x431), .adc 64 32 (.c 0) (.add 32 (.x 55) (.x 51)) (.x 62), .adc 64 32 (.c 0) (.x 58) (.x 64),
  .adc 64 32 (.c 0) (.add 32 (.add 32 (.x 69) (.x 59)) (.x 65)) (.a 6), .adc 64 32 (.x 71) (.x 4) (.c 0), .adc 64 32 (.x 73) (.x 18) (.c 0),
  .adc 64 32 (.x 75) (.x 30) (.c 0), .adc 64 32 (.x 77) (.x 42) (.c 0), .adc 64 32 (.x 79) (.x 54) (.c 0),
  .adc 64 32 (.x 81) (.x 66) (.c 0), .mulx 32 (.x 70) (.c 0x883b2b2f), .mulx 32 (.x 84) (.c 0x80000000), .mulx 32 (.x 84) (.c 0x431),
  .adc 64 32 (.c 0) (.x 70) (.x 88), .adc 64 32 (.x 91) (.x 72) (.x 89), .adc 64 32 (.x 93) (.x 74) (.c 0),
  .adc 64 32 (.x 95) (.x 76) (.c 0), .adc 64 32 (.x 97) (.x 78) (.c 0), .adc 64 32 (.x 99) (.x 80) (.c 0),
  .adc 64 32 (.x 101) (.x 82) (.c 0), .adc 64 32 (.x 103) (.add 32 (.x 83) (.add 32 (.x 67) (.x 63))) (.x 86),
  .adc 64 32 (.c 0) (.x 92) (.a 7), .adc 64 32 (.x 107) (.x 94) (.c 0), .adc 64 32 (.x 109) (.x 96) (.c 0),
  .adc 64 32 (.x 111) (.x 98) (.c 0), .adc 64 32 (.x 113) (.x 100) (.c 0), .adc 64 32 (.x 115) (.x 102) (.c 0),
  .adc 64 32 (.x 117) (.x 104) (.c 0), .mulx 32 (.x 106) (.c 0x883b2b2f), .mulx 32 (.x 120) (.c 0x80000000), .mulx 32 (.x 120) (.c 0x431),
  .adc 64 32 (.c 0) (.x 106) (.x 124), .adc 64 32 (.x 127) (.x 108) (.x 125), .adc 64 32 (.x 129) (.x 110) (.c 0),
  .adc 64 32 (.x 131) (.x 112) (.c 0), .adc 64 32 (.x 133) (.x 114) (.c 0), .adc 64 32 (.x 135) (.x 116) (.c 0),
  .adc 64 32 (.x 137) (.x 118) (.c 0), .adc 64 32 (.x 139) (.add 32 (.x 119) (.add 32 (.x 105) (.x 87))) (.x 122),
  .set (.add 32 (.x 141) (.x 123)), .sbb 64 32 (.c 0) (.x 128) (.c 0x431), .sbb 64 32 (.x 144) (.x 130) (.c 0),
  .sbb 64 32 (.x 146) (.x 132) (.c 0), .sbb 64 32 (.x 148) (.x 134) (.c 0), .sbb 64 32 (.x 150) (.x 136) (.c 0),
  .sbb 64 32 (.x 152) (.x 138) (.c 0), .sbb 64 32 (.x 154) (.x 140) (.c 0), .sbb 64 32 (.x 156) (.x 142) (.c 0x80000000),
  .sbb 64 32 (.x 158) (.c 0) (.c 0), .cmov 32 (.x 160) (.x 143) (.x 128), .cmov 32 (.x 160) (.x 145) (.x 130),
  .cmov 32 (.x 160) (.x 147) (.x 132), .cmov 32 (.x 160) (.x 149) (.x 134), .cmov 32 (.x 160) (.x 151) (.x 136),
  .cmov 32 (.x 160) (.x 153) (.x 138), .cmov 32 (.x 160) (.x 155) (.x 140), .cmov 32 (.x 160) (.x 157) (.x 142)], [161, 162, 163, 164, 165, 166, 167, 168]⟩

/-- `fiat_id_GostR3410_2001_TestParamSet_to_montgomery`, lines 7545-7917. -/
def to_montgomery : CProg := ⟨[
  .mulx 32 (.a 0) (.c 0x464584), .mulx 32 (.x 1) (.c 0x883b2b2f), .mulx 32 (.x 3) (.c 0x80000000), .mulx 32 (.x 3) (.c 0x431),
  .mulx 32 (.a 1) (.c 0x464584), .adc 64 32 (.c 0) (.x 1) (.x 7), .adc 64 32 (.c 0) (.add 32 (.add 32 (.x 12) (.x 2)) (.x 8)) (.x 9),
  .mulx 32 (.x 13) (.c 0x883b2b2f), .mulx 32 (.x 15) (.c 0x80000000), .mulx 32 (.x 15) (.c 0x431), .adc 64 32 (.c 0) (.x 6) (.x 17),
  .mulx 32 (.a 2) (.c 0x464584), .adc 64 32 (.c 0) (.x 13) (.x 19),
  .adc 64 32 (.c 0) (.add 32 (.add 32 (.x 26) (.add 32 (.x 14) (.x 10))) (.x 20)) (.x 23), .mulx 32 (.x 27) (.c 0x883b2b2f),
  .mulx 32 (.x 29) (.c 0x80000000), .mulx 32 (.x 29) (.c 0x431), .adc 64 32 (.c 0) (.add 32 (.x 22) (.x 18)) (.x 31),
  .mulx 32 (.a 3) (.c 0x464584), .adc 64 32 (.c 0) (.x 27) (.x 33),
  .adc 64 32 (.c 0) (.add 32 (.add 32 (.x 40) (.add 32 (.x 28) (.x 24))) (.x 34)) (.x 37), .mulx 32 (.x 41) (.c 0x883b2b2f),
  .mulx 32 (.x 43) (.c 0x80000000), .mulx 32 (.x 43) (.c 0x431), .adc 64 32 (.c 0) (.add 32 (.x 36) (.x 32)) (.x 45),
  .mulx 32 (.a 4) (.c 0x464584), .adc 64 32 (.c 0) (.x 41) (.x 47),
  .adc 64 32 (.c 0) (.add 32 (.add 32 (.x 54) (.add 32 (.x 42) (.x 38))) (.x 48)) (.x 51), .mulx 32 (.x 55) (.c 0x883b2b2f),
  .mulx 32 (.x 57) (.c 0x80000000), .mulx 32 (.x 57) (.c 0x431), .adc 64 32 (.c 0) (.add 32 (.x 50) (.x 46)) (.x 59),
  .mulx 32 (.a 5) (.c 0x464584), .adc 64 32 (.c 0) (.x 55) (.x 61),
  .adc 64 32 (.c 0) (.add 32 (.add 32 (.x 68) (.add 32 (.x 56) (.x 52))) (.x 62)) (.x 65), .mulx 32 (.x 69) (.c 0x883b2b2f),
  .mulx 32 (.x 71) (.c 0x80000000), .mulx 32 (.x 71) (.c 0x431), .adc 64 32 (.c 0) (.add 32 (.x 64) (.x 60)) (.x 73),
  .mulx 32 (.a 6) (.c 0x464584), .adc 64 32 (.c 0) (.x 69) (.x 75),
  .adc 64 32 (.c 0) (.add 32 (.add 32 (.x 82) (.add 32 (.x 70) (.x 66))) (.x 76)) (.x 79), .adc 64 32 (.x 84) (.x 5) (.x 80),
  .adc 64 32 (.x 86) (.x 21) (.c 0), .adc 64 32 (.x 88) (.x 35) (.c 0), .adc 64 32 (.x 90) (.x 49) (.c 0),
  .adc 64 32 (.x 92) (.x 63) (.c 0), .adc 64 32 (.x 94) (.x 77) (.c 0), .mulx 32 (.x 83) (.c 0x883b2b2f), .mulx 32 (.x 97) (.c 0x80000000),
  .mulx 32 (.x 97) (.c 0x431), .adc 64 32 (.c 0) (.x 83) (.x 101), .adc 64 32 (.x 104) (.x 85) (.x 102), .adc 64 32 (.x 106) (.x 87) (.c 0),
  .adc 64 32 (.x 108) (.x 89) (.c 0), .adc 64 32 (.x 110) (.x 91) (.c 0), .adc 64 32 (.x 112) (.x 93) (.c 0),
  .adc 64 32 (.x 114) (.x 95) (.c 0), .adc 64 32 (.x 116) (.add 32 (.x 96) (.add 32 (.x 78) (.x 74))) (.x 99),
  .mulx 32 (.a 7) (.c 0x464584), .adc 64 32 (.c 0) (.x 105) (.x 119), .adc 64 32 (.x 122) (.x 107) (.x 120),
  .adc 64 32 (.x 124) (.x 109) (.c 0), .adc 64 32 (.x 126) (.x 111) (.c 0), .adc 64 32 (.x 128) (.x 113) (.c 0),
  .adc 64 32 (.x 130) (.x 115) (.c 0), .adc 64 32 (.x 132) (.x 117) (.c 0), .mulx 32 (.x 121) (.c 0x883b2b2f),
  .mulx 32 (.x 135) (.c 0x80000000), .mulx 32 (.x 135) (.c 0x431), .adc 64 32 (.c 0) (.x 121) (.x 139),
  .adc 64 32 (.x 142) (.x 123) (.x 140), .adc 64 32 (.x 144) (.x 125) (.c 0), .adc 64 32 (.x 146) (.x 127) (.c 0),
  .adc 64 32 (.x 148) (.x 129) (.c 0), .adc 64 32 (.x 150) (.x 131) (.c 0), .adc 64 32 (.x 152) (.x 133) (.c 0),
  .adc 64 32 (.x 154) (.add 32 (.x 134) (.add 32 (.x 118) (.x 100))) (.x 137), .set (.add 32 (.x 156) (.x 138)),
  .sbb 64 32 (.c 0) (.x 143) (.c 0x431), .sbb 64 32 (.x 159) (.x 145) (.c 0), .sbb 64 32 (.x 161) (.x 147) (.c 0),
  .sbb 64 32 (.x 163) (.x 149) (.c 0), .sbb 64 32 (.x 165) (.x 151) (.c 0), .sbb 64 32 (.x 167) (.x 153) (.c 0),
  .sbb 64 32 (.x 169) (.x 155) (.c 0), .sbb 64 32 (.x 171) (.x 157) (.c 0x80000000), .sbb 64 32 (.x 173) (.c 0) (.c 0),
  .cmov 32 (.x 175) (.x 158) (.x 143), .cmov 32 (.x 175) (.x 160) (.x 145), .cmov 32 (.x 175) (.x 162) (.x 147),
  .cmov 32 (.x 175) (.x 164) (.x 149), .cmov 32 (.x 175) (.x 166) (.x 151), .cmov 32 (.x 175) (.x 168) (.x 153),
  .cmov 32 (.x 175) (.x 170) (.x 155), .cmov 32 (.x 175) (.x 172) (.x 157)], [176, 177, 178, 179, 180, 181, 182, 183]⟩

/-- `fiat_id_GostR3410_2001_TestParamSet_from_bytes`, lines 8164-8286. -/
def from_bytes : CProg := ⟨[
  .set (.shl 32 (.a 31) 24), .set (.shl 32 (.a 30) 16), .set (.shl 32 (.a 29) 8), .set (.a 28), .set (.shl 32 (.a 27) 24),
  .set (.shl 32 (.a 26) 16), .set (.shl 32 (.a 25) 8), .set (.a 24), .set (.shl 32 (.a 23) 24), .set (.shl 32 (.a 22) 16),
  .set (.shl 32 (.a 21) 8), .set (.a 20), .set (.shl 32 (.a 19) 24), .set (.shl 32 (.a 18) 16), .set (.shl 32 (.a 17) 8), .set (.a 16),
  .set (.shl 32 (.a 15) 24), .set (.shl 32 (.a 14) 16), .set (.shl 32 (.a 13) 8), .set (.a 12), .set (.shl 32 (.a 11) 24),
  .set (.shl 32 (.a 10) 16), .set (.shl 32 (.a 9) 8), .set (.a 8), .set (.shl 32 (.a 7) 24), .set (.shl 32 (.a 6) 16),
  .set (.shl 32 (.a 5) 8), .set (.a 4), .set (.shl 32 (.a 3) 24), .set (.shl 32 (.a 2) 16), .set (.shl 32 (.a 1) 8), .set (.a 0),
  .set (.add 32 (.x 31) (.x 32)), .set (.add 32 (.x 30) (.x 33)), .set (.add 32 (.x 29) (.x 34)), .set (.add 32 (.x 27) (.x 28)),
  .set (.add 32 (.x 26) (.x 36)), .set (.add 32 (.x 25) (.x 37)), .set (.add 32 (.x 23) (.x 24)), .set (.add 32 (.x 22) (.x 39)),
  .set (.add 32 (.x 21) (.x 40)), .set (.add 32 (.x 19) (.x 20)), .set (.add 32 (.x 18) (.x 42)), .set (.add 32 (.x 17) (.x 43)),
  .set (.add 32 (.x 15) (.x 16)), .set (.add 32 (.x 14) (.x 45)), .set (.add 32 (.x 13) (.x 46)), .set (.add 32 (.x 11) (.x 12)),
  .set (.add 32 (.x 10) (.x 48)), .set (.add 32 (.x 9) (.x 49)), .set (.add 32 (.x 7) (.x 8)), .set (.add 32 (.x 6) (.x 51)),
  .set (.add 32 (.x 5) (.x 52)), .set (.add 32 (.x 3) (.x 4)), .set (.add 32 (.x 2) (.x 54)), .set (.add 32 (.x 1) (.x 55))], [35, 38, 41, 44, 47, 50, 53, 56]⟩

/-- `fiat_id_GostR3410_2001_TestParamSet_to_bytes`, lines 8003-8149. -/
def to_bytes : CProg := ⟨[
  .set (.a 7), .set (.a 6), .set (.a 5), .set (.a 4), .set (.a 3), .set (.a 2), .set (.a 1), .set (.a 0),
  .set (.cast 8 (.and (.x 8) (.c 0xff))), .set (.shr (.x 8) 8), .set (.cast 8 (.and (.x 10) (.c 0xff))), .set (.shr (.x 10) 8),
  .set (.cast 8 (.and (.x 12) (.c 0xff))), .set (.cast 8 (.shr (.x 12) 8)), .set (.cast 8 (.and (.x 7) (.c 0xff))), .set (.shr (.x 7) 8),
  .set (.cast 8 (.and (.x 16) (.c 0xff))), .set (.shr (.x 16) 8), .set (.cast 8 (.and (.x 18) (.c 0xff))), .set (.cast 8 (.shr (.x 18) 8)),
  .set (.cast 8 (.and (.x 6) (.c 0xff))), .set (.shr (.x 6) 8), .set (.cast 8 (.and (.x 22) (.c 0xff))), .set (.shr (.x 22) 8),
  .set (.cast 8 (.and (.x 24) (.c 0xff))), .set (.cast 8 (.shr (.x 24) 8)), .set (.cast 8 (.and (.x 5) (.c 0xff))), .set (.shr (.x 5) 8),
  .set (.cast 8 (.and (.x 28) (.c 0xff))), .set (.shr (.x 28) 8), .set (.cast 8 (.and (.x 30) (.c 0xff))), .set (.cast 8 (.shr (.x 30) 8)),
  .set (.cast 8 (.and (.x 4) (.c 0xff))), .set (.shr (.x 4) 8), .set (.cast 8 (.and (.x 34) (.c 0xff))), .set (.shr (.x 34) 8),
  .set (.cast 8 (.and (.x 36) (.c 0xff))), .set (.cast 8 (.shr (.x 36) 8)), .set (.cast 8 (.and (.x 3) (.c 0xff))), .set (.shr (.x 3) 8),
  .set (.cast 8 (.and (.x 40) (.c 0xff))), .set (.shr (.x 40) 8), .set (.cast 8 (.and (.x 42) (.c 0xff))), .set (.cast 8 (.shr (.x 42) 8)),
  .set (.cast 8 (.and (.x 2) (.c 0xff))), .set (.shr (.x 2) 8), .set (.cast 8 (.and (.x 46) (.c 0xff))), .set (.shr (.x 46) 8),
  .set (.cast 8 (.and (.x 48) (.c 0xff))), .set (.cast 8 (.shr (.x 48) 8)), .set (.cast 8 (.and (.x 1) (.c 0xff))), .set (.shr (.x 1) 8),
  .set (.cast 8 (.and (.x 52) (.c 0xff))), .set (.shr (.x 52) 8), .set (.cast 8 (.and (.x 54) (.c 0xff))), .set (.cast 8 (.shr (.x 54) 8))], [9, 11, 13, 14, 15, 17, 19, 20, 21, 23, 25, 26, 27, 29, 31, 32, 33, 35, 37, 38, 39, 41, 43, 44, 45, 47, 49, 50, 51, 53, 55, 56]⟩

/-- `fiat_id_GostR3410_2001_TestParamSet_inv`, lines 8296-8316; the variables are 0 = t1, 0 = output, 1 = acc, 2 = t15; a loop of multiplications is written out. -/
def inv : List InvStep := [.sq 1 0 1, .mul 2 0 1, .mul 2 2 1, .mul 2 2 1, .mul 2 2 1, .mul 2 2 1, .mul 2 2 1, .mul 2 2 1, .sq 1 0 1, .sq 1 1 244,
  .mul 1 1 0, .sq 1 1 5, .mul 1 1 0, .sq 1 1 5, .mul 0 1 2]

/-- The constants, lines: `const_one` 8320-8323, `const_a` 8325-8328, `const_b3` 8330-8333; the file has no others. -/
def consts : FiatConsts where
  one := [0xfffffbcf, 0xffffffff, 0xffffffff, 0xffffffff, 0xffffffff, 0xffffffff, 0xffffffff, 0x7fffffff]
  a := [0xffffc983, 0xffffffff, 0xffffffff, 0xffffffff, 0xffffffff, 0xffffffff, 0xffffffff, 0x7fffffff]
  b := [0, 0, 0, 0, 0, 0, 0, 0]
  b3 := [0x6aeab71c, 0x81733ee9, 0xfc4e6fc7, 0xcd3d1c, 0x75853407, 0x60ab503a, 0x4556810a, 0xa9ec8ae]
  d := [0, 0, 0, 0, 0, 0, 0, 0]
  S := [0, 0, 0, 0, 0, 0, 0, 0]
  T := [0, 0, 0, 0, 0, 0, 0, 0]

/-- The functions of the file. -/
def file : FiatMont where
  mul := mul
  square := square
  add := add
  sub := sub
  opp := opp
  from_montgomery := from_montgomery
  to_montgomery := to_montgomery
  from_bytes := from_bytes
  to_bytes := to_bytes
  inv := inv
  limbs := 8
  consts := consts

/-- `lut_cmb`, lines 8336-10982. -/
def lut_data : List (List (AffW (List Nat))) := [
  [⟨[0xfffff36d, 0xffffffff, 0xffffffff, 0xffffffff, 0xffffffff, 0xffffffff, 0xffffffff, 0x7fffffff], [0x471125f5, 0x9af45a5a, 0xf69bf9ae, 0x7ce5090a, 0xe4b6dde6, 0x67617a63, 0x4aa3daa4, 0x3f66b35]⟩,
   ⟨[0x149b5d15, 0xb39bdc16, 0x7309454f, 0x87ce978a, 0x315a7a56, 0xd22f32ef, 0xb69a6b57, 0x4c7de232], [0x466dc64d, 0x9e2daf6d, 0x4b1c8a55, 0x758c27b1, 0xbd647f1a, 0x74a0cb23, 0x2c2f4c70, 0x27e74868]⟩,
   ⟨[0x55a62594, 0xf2d8f32e, 0x36bc547a, 0x8323d570, 0x98d4b25a, 0x497679eb, 0xb87e0534, 0x61167f2], [0x223e4df8, 0xe1fffdce, 0xdcd891e9, 0x7c83ae78, 0x3c1b95d0, 0x74398586, 0x74b3f5ab, 0x11d73205]⟩,
   ⟨[0xacb97f7c, 0x34b9c048, 0xe3b9bcc6, 0x8232e73c, 0xda2db71d, 0x81f4b63f, 0xa2df4c84, 0x4eee5393], [0xac469c69, 0xca6e63ae, 0x428e4f01, 0x27bc807c, 0x5f4ec124, 0x4a2c23ba, 0xaae2668b, 0x74847cfc]⟩,
   ⟨[0x6716af4e, 0x4435585f, 0x1cdb965f, 0xb872d8b7, 0x746ffad0, 0x662f1962, 0xdb5d0187, 0x52761a24], [0xa57e0e3d, 0xf6a09922, 0xa9c12b63, 0x86c69342, 0x5af190c5, 0x91ff20b6, 0x4eeee1ae, 0x10db7a2a]⟩,
   ⟨[0x74628b90, 0xbb464a53, 0x57a4f25, 0x6e7a1227, 0xb0fa41f, 0x4c309d69, 0x77fe7b93, 0x75482607], [0xb612421, 0xf2583ec7, 0x5e2b15ed, 0xff2cfc83, 0x8cabc5cf, 0x1e97a7db, 0x925c149f, 0x1ec08faa]⟩,
   ⟨[0xe9fcba9, 0xba0170e3, 0x70d9939b, 0x8976df7c, 0x21af14dd, 0xeae6e74b, 0xd0861f9, 0x9f09868], [0x21a781ff, 0x4f7fe26e, 0xd73dcef7, 0x1725b8d0, 0x7e743498, 0x9da63217, 0x1b828b99, 0xf51d42c]⟩,
   ⟨[0x9afe09bd, 0xbabb076b, 0x17c4050d, 0x4ac89223, 0xda3e57e8, 0xca3ea6e3, 0xa33242c0, 0x20aaa384], [0xef929bf5, 0x6d3a1f2d, 0xe751a62d, 0xb34e2605, 0xb8cf1f99, 0xe1ac629f, 0xf0bba01a, 0x7152d4e3]⟩,
   ⟨[0x943e5b8e, 0xa97a6ce3, 0x2d053a9d, 0x1c0f6c7f, 0x64457de4, 0x9d4a91de, 0xc6140057, 0x1e19ea8f], [0x500995c8, 0xd4766cb6, 0xe70cd7ee, 0xa019d41d, 0x7ab0a162, 0xba1828aa, 0xb7a4e93, 0xcaca063]⟩,
   ⟨[0xa1b3fe03, 0x1e68315c, 0x1aab6b20, 0x21fb277e, 0x6a90fb22, 0x210305d7, 0x2e51b9bc, 0x4c3d3eea], [0x89c3a2e8, 0xc5662c6d, 0x1712bf9b, 0x66ea4818, 0x2254fbab, 0x417f8f04, 0xb057eec1, 0x2f57df29]⟩,
   ⟨[0x6509ae4f, 0xf6975c9f, 0xdc89c220, 0x58300438, 0x907ff785, 0xe81da879, 0x910ed2f, 0x68d600e3], [0xb43bf686, 0xfbb25113, 0x50a64fae, 0x8b391e3f, 0x3112b7ed, 0x8c1190d2, 0xccb4ca50, 0x617bcd41]⟩,
   ⟨[0xdd780aca, 0x75036e69, 0x6fbcd996, 0xc90a01de, 0xc851cef, 0x75e1a8e8, 0xf71bdcc6, 0x7225d38a], [0x868b78d2, 0x74ae6935, 0x1cdb5a1e, 0xe70570f3, 0xbebd2fa4, 0x3e700c48, 0x325d3214, 0x3e483638]⟩,
   ⟨[0xc0e6d8ad, 0x9f272cd5, 0xe09743a2, 0x9e29687c, 0x93cd64b3, 0xbe0e0d59, 0x504b58f0, 0x5d57a75d], [0x5d44b092, 0x81a1a6e3, 0x310d7868, 0x38ad0169, 0xcc297b73, 0xc8d3c9a6, 0x908e0814, 0x34d98a19]⟩,
   ⟨[0xe5a57e1f, 0xffb946ad, 0x191b6c5f, 0xf7ea0aa2, 0x8df529c1, 0x52d07058, 0x2afda727, 0x6b7bde5], [0x90658555, 0x651e6dc9, 0x1fc416ce, 0x8f910d89, 0xcbf086d5, 0xba4d84e, 0xc4a4b4a, 0x73da158c]⟩,
   ⟨[0x521db62c, 0xe22420a6, 0xbc90eb6f, 0x8ebc1a21, 0xe50f6eb4, 0xe1529aac, 0x8be235db, 0x4025bf27], [0x9ffe2b82, 0x40607710, 0x696b4634, 0x7a6bb75b, 0x2b2f25d3, 0xcef27a9, 0xca0b7112, 0x6c9cffd7]⟩,
   ⟨[0xeda5c43b, 0x12b39ff0, 0x54e0fe3f, 0x2e1fc66c, 0x248a9167, 0xfb2dea80, 0x3b2bb322, 0x11bcda10], [0x16d2c928, 0xfddf6e84, 0x36e887f4, 0x99ddf6a1, 0x920092d6, 0x1e56d2f3, 0x2d77ae5a, 0x67433bf4]⟩],
  [⟨[0x321bfa62, 0x6c204ddc, 0x2f138a80, 0xa96e42b8, 0xe3ec1a7d, 0x4c98e986, 0x136cadc4, 0x223c8bc4], [0xba3ce54a, 0xfa9f15d3, 0x19963d88, 0xa103b9d7, 0x2f811a21, 0x1ed23354, 0x65a4e833, 0x64d6b14c]⟩,
   ⟨[0xcfbd1039, 0x2485175c, 0x7c92d8ec, 0xc4dae65b, 0x1859fd47, 0x6fc70f54, 0x33e8305c, 0x6d543444], [0x944dda07, 0x1a65fec2, 0xef375b21, 0x7bcf8391, 0xbe4cd8d6, 0xddcfc356, 0x13850042, 0x4bf93b9e]⟩,
   ⟨[0x88b7f950, 0xbdf7a56c, 0x81b8590e, 0x3a60e5fc, 0x6f6e6807, 0x475b94d1, 0x2f0d49a8, 0x2f1b9f06], [0x2e6a01d3, 0x3c36dcf3, 0x30444003, 0x807e1d5b, 0xfecf5768, 0xe3768486, 0xef12b5cc, 0x73c4d0cf]⟩,
   ⟨[0xf4c6ff93, 0x9d76477c, 0xc5a1a495, 0x3f16687, 0xb41748b2, 0x5071da3d, 0x971d6a7d, 0xf3a3784], [0x2785a782, 0xb9a5ad6, 0x9ff09f9, 0x957e72a0, 0xae3cf5f4, 0x3072c1dc, 0xcd9cfd7e, 0x63d463ac]⟩,
   ⟨[0xc77b516c, 0xda0dee0b, 0xe6aa0e1f, 0x446d7199, 0xbffa705c, 0xcc0d1590, 0xc35b59ba, 0x6a6fc81c], [0x593e3eb9, 0x39df210e, 0xd0dcc01f, 0x17f331ce, 0xbd176c5b, 0x2e0e5eb, 0x8a2d6290, 0x68946ccc]⟩,
   ⟨[0x9ecfef2, 0x8d1400d6, 0xe1e76a98, 0x57d5f91b, 0xa12dff8d, 0x5cf76130, 0x61002939, 0x5c361922], [0xfb0fe974, 0x8d45c8c1, 0xf942ed70, 0xc97725e, 0x73c5aa42, 0xb1c66498, 0x7e203187, 0x4a121fc4]⟩,
   ⟨[0xfceda76c, 0x58430ee3, 0xf5c88d62, 0x3496699a, 0x14273e7e, 0x1c3fc811, 0x1d6d67da, 0x3e38e9fc], [0xab685b3b, 0xbb683ea4, 0xb0904bb3, 0xb63f72b1, 0x47a75297, 0x5dfa23c5, 0x38b59560, 0x9e80aa0]⟩,
   ⟨[0x7f4d22fc, 0x7d8325c6, 0x8c2fa282, 0xbffb01b1, 0x4a89be98, 0x1a037dc, 0x84ea8c8a, 0x92f6525], [0xc52fd518, 0x873d33da, 0x44afdd41, 0xa245b15, 0x98fa7ff5, 0x78993737, 0x21d29087, 0x1bb48ad2]⟩,
   ⟨[0x1a59313c, 0xc97a99, 0x5cf9a6ff, 0xbd4f29ee, 0xd839b62b, 0xea59d87a, 0x97cab63c, 0x16f18f48], [0x6f6c292f, 0xb339789a, 0xd005abb2, 0xec52e644, 0xae24da46, 0xeeac93c9, 0xe5c43b4f, 0xecb9957]⟩,
   ⟨[0x20561af7, 0xd91b2202, 0x55f2cfb8, 0xeca260dd, 0x17b91ccf, 0xf03a8c1d, 0x64b35d9a, 0x55a0491f], [0x1a2f8f39, 0xa97e5cc, 0x23b1d80b, 0x2c187d1, 0xdb9fba1a, 0xa9c13d26, 0xf8051f0d, 0x7ccddbac]⟩,
   ⟨[0xed0e9db8, 0x5ca8ea5, 0x53a8ea3f, 0xe888079f, 0x9209bfa2, 0x6ddbc40d, 0x80dceaea, 0x68e5ba9], [0xb19d824b, 0xdb69d133, 0xe6a3a462, 0x65154fb6, 0x20b2ac7, 0x9fcf733d, 0xe1329315, 0x15178dde]⟩,
   ⟨[0x877ee476, 0x76f78865, 0x12b471ba, 0x5824eacc, 0xbbb640a8, 0x71bdfadf, 0x9a631d09, 0x5181b08f], [0xffe978e8, 0x2913cca5, 0xaeb89aa6, 0x9cef3612, 0xe02ad6dc, 0x93bb373e, 0x4144769, 0x5d7984f0]⟩,
   ⟨[0x4f98d2c3, 0x3219db07, 0xbd40accc, 0xe3ef888f, 0x31124c73, 0x7a30e3a, 0xb070c53f, 0x5d9c820b], [0xda0661ab, 0x94d41768, 0x21ff87eb, 0x27fc2661, 0xff17a977, 0xb8dcbc7f, 0x392eb13d, 0x71f75ff9]⟩,
   ⟨[0x9ad71ab0, 0xc5ced56c, 0x39d6c9f1, 0xe744eab0, 0x839bd904, 0x6e49b00b, 0xd7003054, 0xc0ede2c], [0x1a6a1bb7, 0x792c3f80, 0x4b2c7885, 0x6e5093b1, 0x13ea65f7, 0x28873209, 0xf381c851, 0x85a2697]⟩,
   ⟨[0xda60a255, 0x84fc6b9d, 0x4b495bc6, 0x12397eed, 0x71a5aa87, 0x4881df6b, 0x9572cfe2, 0x57bb3259], [0x3a10a65f, 0x30677759, 0xdb1758dd, 0x670b82ec, 0xd57b513e, 0xd84f3e8f, 0x89088e78, 0x617a512a]⟩,
   ⟨[0xae3d7707, 0x83971322, 0x6d34d0b4, 0x66563cde, 0xc13309ed, 0x95342d9b, 0x82a5887, 0x62c2b1b6], [0xc3c27158, 0xd94a8712, 0xa844bf60, 0xde2c9c9d, 0xce3e4f3c, 0xde897386, 0x6acebdf1, 0x2c22a82e]⟩],
  [⟨[0x604e200, 0x2755028a, 0x44189101, 0xade23a7d, 0xf0b7f9b7, 0xa6e418f4, 0x212edc2a, 0x36f5503], [0x3f5e0456, 0xe069d06a, 0xf37f2d8, 0x2faff7c8, 0x7f5ede53, 0xff08e879, 0x797e0427, 0x7f97725d]⟩,
   ⟨[0xb32e5b1b, 0xe44e39c1, 0xad3ec706, 0x25cd4614, 0xe382c5d2, 0x2e97b090, 0xb00d79f2, 0x3e1a1f6b], [0xc2375837, 0x27573c4e, 0x6c8d5ccd, 0xad53d2c8, 0xfc09725a, 0x94ee5460, 0x2dd0df4, 0x6e592506]⟩,
   ⟨[0x3d0c7ac4, 0x6cffa4bf, 0x69ed4317, 0x663b1218, 0xc79ad5c1, 0x933094f6, 0xffc54767, 0x569f37ed], [0x1f338782, 0x954eee0c, 0xa46ca276, 0x5be69673, 0x20cb26dc, 0x77ba0009, 0x29316ae, 0x2211cac3]⟩,
   ⟨[0x184ebd7c, 0xc8def3cb, 0x6a4db0a0, 0x39337050, 0xbe1d82c, 0x6ff7993a, 0xfc9252c0, 0x1d7674a], [0xf62d9268, 0xb10ba727, 0x817b687b, 0x6e2338d8, 0xe47405f1, 0x266443f2, 0x6872b879, 0x6a1bd9ce]⟩,
   ⟨[0x2b2bd346, 0x19213765, 0xe2acfb8e, 0x962ca22c, 0x62fecde1, 0x518cf45d, 0xa13d9e8d, 0x529ae629], [0xbb69d5e3, 0xaf796db0, 0xd4e596b7, 0xa064209d, 0x47942c73, 0x9f3dfd4a, 0x7810d5ec, 0x7fab6c6d]⟩,
   ⟨[0x66a3b287, 0x55d15250, 0xeefddc75, 0x1ecc6a20, 0x26de8c01, 0xf683fa60, 0x9fba658c, 0x4f5de2a6], [0xc66d82f4, 0xe748d78a, 0x3b24c76b, 0x2ba525ef, 0x30ee69ce, 0x5a9539e6, 0xb7861b2d, 0x2da4c4c2]⟩,
   ⟨[0x820743e6, 0x9d1e982d, 0xab0cc42d, 0x705d9237, 0x47c4e7d7, 0xbdd01663, 0xf8e69896, 0x3d48ee78], [0x41132782, 0x7a822bcd, 0xee46f715, 0xbd41befa, 0xd0b2f4b0, 0x8e5c3b5f, 0x5e47ed55, 0x690a53d4]⟩,
   ⟨[0x65a40e44, 0x390536c1, 0x1c92235c, 0x4b4d7970, 0x8b7389e4, 0xcac27084, 0x19041d01, 0x7b5b23b2], [0x3b5fd5ba, 0x7c18b973, 0x84b72217, 0xfd14865d, 0x267ede4c, 0x5592547e, 0x8b369753, 0x22db62e5]⟩,
   ⟨[0xddf15bdd, 0x6083d33, 0x361925f5, 0x5766555f, 0xb7acdea7, 0xecc0f110, 0xa3453b5, 0x3e3f1b27], [0x6f7b980d, 0x5a8b7df9, 0xb44756ac, 0xeba90e39, 0xac9a7db2, 0x954d7ecd, 0x28ea7151, 0x43f688d3]⟩,
   ⟨[0x4638efae, 0x51f64569, 0x3d28bf3c, 0x5840a5db, 0x134d3e8f, 0xdd486261, 0x7b6b466b, 0x9f17e2c], [0x78ed7016, 0x30d35463, 0xb86d8508, 0x342e9701, 0x42b19533, 0xa3ff6565, 0x61a4a81, 0x4405f02c]⟩,
   ⟨[0x3d3aaf1e, 0x15c921c0, 0x7d297559, 0x2dd720c7, 0xcb80e3b2, 0x93a07904, 0x6b1edb93, 0x427c610b], [0xf61e2f41, 0xd2ce818f, 0x8252fb3c, 0x1da53421, 0xed07538f, 0x37a4a997, 0x962454f2, 0x48a928bf]⟩,
   ⟨[0x7a420273, 0x65091e4d, 0xe54c0b47, 0x6af382af, 0x8047a423, 0x150dab08, 0x45bd197c, 0x22c3740a], [0xe07c3468, 0x64429aa0, 0x7b37fe10, 0xc506b8c9, 0x3cc5062c, 0x30e2fe78, 0xa9242f2d, 0x2f3b5a5f]⟩,
   ⟨[0x5a40bca1, 0x2619a3b2, 0x118c2fea, 0xd012df23, 0xb73fe15c, 0x2868c8b7, 0xeb10b475, 0x45a9cc5a], [0x69050ad, 0x7111ab75, 0xec2398a9, 0x665182b, 0x9b86a240, 0xd9a5126e, 0x40e2aed6, 0x601cf0e0]⟩,
   ⟨[0xf48c8655, 0xe74c9dcd, 0x900e89d5, 0xee703ca8, 0x5390f052, 0x6c2dff8b, 0x1316cc4c, 0x8588e89], [0x47e80c87, 0xf2cc83a, 0xd87824e4, 0x23de34cf, 0x541fe8f9, 0xc530af41, 0xd142f1c0, 0xbf01dc0]⟩,
   ⟨[0x886c0c4a, 0x210b0b1e, 0x9c56a126, 0x66369df1, 0xeac22a5e, 0x5d79ae81, 0xd16f7db6, 0x4e6c67d4], [0x247cde60, 0x274572f6, 0x54e8454b, 0xf3c92ac7, 0xf08c32d1, 0x784ec1a1, 0xe1fe9c4e, 0x222716d8]⟩,
   ⟨[0x3fb1db1e, 0xaf6aef5d, 0xc4c2a4d8, 0xb8b55842, 0xca5ab578, 0x258a2f44, 0x7d8b2d70, 0x558a803f], [0x7e0247a3, 0x9a7345c3, 0xb4d920b1, 0x4e5a6904, 0x76bcbbe1, 0xcf7faa41, 0xee112271, 0x66cf993f]⟩],
  [⟨[0x84d2c56b, 0xde7d208f, 0xdda20f33, 0xd1c77403, 0x9a6f337a, 0xb73fdc09, 0x40cd2cbd, 0x1b2a3807], [0x65988d73, 0xb642fa2c, 0x59dab8e, 0x117e75bc, 0xd6b279aa, 0xc7e2e935, 0xeea2a445, 0x5eeb9654]⟩,
   ⟨[0xa59d7a2a, 0xa84747c0, 0x1004c5b8, 0x4478ad4a, 0xa22de791, 0xf55c2b1b, 0x23f8f89f, 0x2ff6097d], [0xe117bc40, 0xd079c875, 0x3cb43dd, 0x14aea360, 0xa20d653, 0x8c730d89, 0x2fd02d8, 0x6956274a]⟩,
   ⟨[0xd46293cf, 0x9f5d0e9d, 0xf0d93ab7, 0x53748dd4, 0xb9c37cf0, 0x6f81339f, 0xf4b041fc, 0xb8677a], [0xb5a6fe97, 0xf76e0ffe, 0xf7d198a2, 0x6d3c71f5, 0x11420372, 0xf91e8408, 0x70036aed, 0x36f9f354]⟩,
   ⟨[0x5d446956, 0x503af4f2, 0x2dc9777c, 0xca08c537, 0xe1308d3a, 0xdb4ba888, 0x1db98cb, 0x1ea28ea], [0xa7df5fe0, 0x27cc52a9, 0x7de31e0a, 0x7da5186b, 0xf136fad5, 0x63e32889, 0xa363af23, 0x1bb010a8]⟩,
   ⟨[0xc0fe56c9, 0x65828b54, 0x4ed3935a, 0x7322cd51, 0x37b4a727, 0x42f068f4, 0xb4c02be4, 0x7aa9f9f0], [0xdebb2dd4, 0xbb77851a, 0xd105b81f, 0x7757d5f6, 0x52fa1512, 0x7805369c, 0x38b6976a, 0x4cbc43ae]⟩,
   ⟨[0x4096725b, 0x24fe8abd, 0x3895d1e2, 0xc3fac73a, 0x6a2360, 0xbcaf7757, 0xc03ebb33, 0x75ae96ad], [0xbd1fb6f, 0x31074478, 0xea386cbe, 0x729e8e6a, 0x4845aaec, 0xa8bbcc0b, 0xe6582656, 0x1a0a2d19]⟩,
   ⟨[0x69bd55f7, 0x332bc9bd, 0xefb6f780, 0x93d987e2, 0x14381f4d, 0xe57de096, 0xff01c4d9, 0x7bdf4217], [0x1956bf02, 0x2a07c4ab, 0x553823d9, 0x7c7b3684, 0xd40f600c, 0x8f750e8e, 0x9693a3c3, 0x63f253e9]⟩,
   ⟨[0xc62ce42b, 0x250ed8bf, 0xe70674e1, 0xe8a1a295, 0x163a92f1, 0x5ed093d, 0x628969a0, 0x515ff44b], [0x41ce3af8, 0xf617df03, 0xf9e60202, 0xcade131a, 0x363b87e9, 0xfe83c379, 0x493ef65f, 0x7196a80b]⟩,
   ⟨[0xd7a2047b, 0x4b176fe6, 0x41dca514, 0x6981d182, 0xdc74ac2e, 0xddc7ee8e, 0x85cc07d1, 0x3a95a203], [0x841e3200, 0x8d4ba2d8, 0x5f654197, 0x837ddd9b, 0xfbfe4d06, 0x388d358e, 0x61143a85, 0x562de2f2]⟩,
   ⟨[0xcfacb903, 0x3ba1f6e5, 0xbd97a3a2, 0xb5bba41f, 0xcfcf2547, 0xb86f117f, 0x3d9a13db, 0x50642859], [0x7b5f2a8f, 0xc15c82ae, 0xef89351e, 0x47e772dd, 0xcaac4cc7, 0x78c53901, 0x68d72131, 0x6b0f5d30]⟩,
   ⟨[0xa0b407e6, 0x47e17734, 0x34949a81, 0x29e06830, 0xcb1ac772, 0x63d83340, 0xeb84f909, 0x178a6dd6], [0x3c27d7ba, 0xa9e94826, 0xdb027a4c, 0xc86af96d, 0x56d5df86, 0xe7d04e34, 0x2e8d0ee3, 0x7212eac2]⟩,
   ⟨[0x8a75f66b, 0xe7e5aa64, 0x8cfd9597, 0x7e86b6aa, 0x834c0271, 0x1b7dde0c, 0xd4ad306f, 0x397eaf2a], [0x1657e32b, 0xa357906, 0x4957b3af, 0xaaeb2dcf, 0x69d3cee9, 0x1c0cbd02, 0x5a6e7d53, 0x7434ec32]⟩,
   ⟨[0x85559e86, 0xeb5878f7, 0x4a09c168, 0xb9555f70, 0x80501134, 0xbffac5db, 0x5b53160, 0x4cdbf53a], [0x5f90344b, 0x1413ba29, 0xd0dd0cfd, 0xc6a9d1ed, 0xa0c31b73, 0x8c56aa29, 0xf4e58e08, 0x1c9b0b61]⟩,
   ⟨[0xe2f595a, 0xbf8d2237, 0xcba13cd8, 0x7a646816, 0x5cd728b6, 0xbd2e93a1, 0x7cf9009, 0x30fdf85c], [0x6122b98, 0x3496d949, 0x5a80b3af, 0xe63ec741, 0x82838a44, 0xa2a39cf7, 0xc015e1d4, 0x4a064f99]⟩,
   ⟨[0x456cb242, 0x9ccdf95b, 0x6f4517dc, 0xda1cb24e, 0x931a1115, 0x60450e0f, 0xb5680a8d, 0x6780d774], [0x1fda4243, 0xafe48dcd, 0xae9733c7, 0x6bdd541c, 0xd79d1d52, 0xcbbcc69c, 0x1a513b3e, 0x334f4f67]⟩,
   ⟨[0xdf49e1a0, 0xce7712c4, 0xe0b96135, 0xb5444862, 0xf050d010, 0x10564c4b, 0xfebefcc8, 0x531aec8], [0x70df6d29, 0xd45b4be7, 0x6829054e, 0x1acc2d70, 0x54e56e05, 0x9744cde1, 0x6ee02696, 0x3c5de93e]⟩],
  [⟨[0x3951b674, 0xf43a2b99, 0x5e72fc98, 0xe82789e8, 0x86992601, 0x2ad48436, 0x1a2b65a, 0x3fdeb172], [0x3666322b, 0x926b4839, 0x44b3fdb7, 0x68847d5c, 0xf2f5e247, 0xd06c450d, 0xbba7c892, 0xcec0646]⟩,
   ⟨[0x61f9c9da, 0x76446d26, 0xac60376f, 0xef2c7b98, 0x2410c057, 0xeea8cabe, 0x3672a2b6, 0x4c2ce2a7], [0x12879ba5, 0x3f770945, 0xad913022, 0x719d5bd0, 0x36d445a4, 0x28a82dd9, 0x965965aa, 0x26382c23]⟩,
   ⟨[0xb8aa8419, 0x66709d92, 0xab5c241, 0xfaeff2e4, 0x1dd46deb, 0xabb7c5dd, 0x39db6cb5, 0x7dd03c33], [0x9e160f01, 0x76cdd1ea, 0x81c5ca37, 0x598d56, 0x241772ec, 0x16d23b04, 0x52a6b807, 0x5132b028]⟩,
   ⟨[0xcc041445, 0x6d48d4b5, 0x1528df63, 0xb1cd923, 0x4a815f60, 0x82ee4dc6, 0x451e242, 0x29da6059], [0x17a8a6d0, 0xcd90bfb0, 0x52a7fc3d, 0x8bcf4392, 0x1974860c, 0x49ad55f2, 0x5edcb1d2, 0x20bbf010]⟩,
   ⟨[0xa8f6c08c, 0xb4f0ea84, 0xd50164f3, 0x4341bea7, 0x6320c0f, 0xe5389019, 0x8ba6f033, 0x69d4851a], [0x77902045, 0x1ce58660, 0xbd8579b3, 0xf3b88d85, 0x4fb0a17b, 0xf84ff63a, 0xde6581bf, 0x9ee62ee]⟩,
   ⟨[0x7c0516de, 0x8b8c15b5, 0xa530b89f, 0x3b448fc3, 0x500b0251, 0xe385bbe5, 0xed70804b, 0x5f643f85], [0x239e85a5, 0x550d9b7d, 0x8666e41f, 0xdc910b5b, 0x7d4e390f, 0x65522181, 0x3162fe10, 0x5dd2d3e8]⟩,
   ⟨[0xdf024a25, 0x59609390, 0x8ccba91, 0xe66a77e9, 0x65e24db6, 0xc5cea91a, 0x3dcea0a7, 0x888dfb5], [0x92fa0754, 0x8c8e58cc, 0xf7dc9538, 0x99c259ab, 0x9befe750, 0x3a06d8ed, 0xfaacdc97, 0x71af22e1]⟩,
   ⟨[0x250ac059, 0xcc41d094, 0x3be3da01, 0xcd792a73, 0xcc61efe1, 0x2da07802, 0x57053a5d, 0x293afb08], [0x2fd8a8a0, 0x3e7e4884, 0xb9b48d3, 0x183fa500, 0x431aacf6, 0x9cac07be, 0x2df89f10, 0x4f82d799]⟩,
   ⟨[0xa84935c, 0xfd9f61a8, 0xbb5a7e56, 0x78b948d0, 0xacceeb3, 0xda478766, 0x53c3851d, 0x47bdae44], [0xcfe8d0d, 0x5ae2c60c, 0x1d8a79c9, 0xac8f79b3, 0xa79ca31, 0xa958c15e, 0xf0952018, 0x1c46e20e]⟩,
   ⟨[0xf04ac529, 0xae552ece, 0xe2bfefbc, 0xb295b601, 0x54733412, 0xecc1ee55, 0x12282094, 0x28bcba53], [0x50b25069, 0x306c0781, 0xe9a18ffe, 0x10d5d23c, 0x1bd5489f, 0xc34fc5c7, 0xe191867d, 0x2b610028]⟩,
   ⟨[0x3e17e84d, 0x458a1cc1, 0x5d7cfb98, 0x6eae343d, 0x101f0b7e, 0xc6e0fdaa, 0x2a023288, 0xb9f7c2c], [0x6f3fcaa0, 0xbea893a8, 0x452b07c0, 0x7d711b2b, 0x98e2c88d, 0x28958737, 0xdfd99a2a, 0x553a0180]⟩,
   ⟨[0xdba5986, 0x8d617be8, 0x13d18594, 0xdb763c14, 0xd2dad82f, 0x822cb0da, 0x93239947, 0x37acd99f], [0xcdc08be6, 0x6a2a7070, 0xcf6d63ff, 0x86b3b66a, 0xf7d4a67, 0x5beff3fb, 0xebc94ae5, 0x5c25557]⟩,
   ⟨[0x89183418, 0x5d1dc087, 0x6ea5a960, 0xa25c7ae2, 0xd31f3aae, 0x74698b9, 0x221788a4, 0x5a5b510b], [0x1dce95fe, 0x896a8787, 0x7f24020c, 0x89e7b93d, 0x865b4334, 0xfc19bf42, 0x5b78b06d, 0x389fbf7]⟩,
   ⟨[0xbb3a3e2, 0x73b6da7b, 0x44d56755, 0xdbc12670, 0x7cc1c589, 0x7af2de28, 0x697cb6b7, 0x7e248fcb], [0xc64202c0, 0x9410ec06, 0x75eb3a8c, 0x79c82158, 0xe95c5ea9, 0x74fdd2f6, 0x1cca72c7, 0x2a40b5b5]⟩,
   ⟨[0x5c29e320, 0x56984223, 0xe871d9e2, 0x8266392a, 0x7b391763, 0x9d86c6c7, 0x2543c9e, 0x5e9e61e2], [0xd2501d1a, 0xd62a9334, 0x9211135d, 0x9d19f54d, 0x8fe81272, 0x66d0b961, 0xd09c2033, 0x6e64635a]⟩,
   ⟨[0x6f84e11, 0x93bd0ad8, 0x131afdbf, 0x45f18f2b, 0x6058eb37, 0x881f053f, 0x948ad0d5, 0x36b8d656], [0xe1934e38, 0x53dc2e02, 0xc0435b6c, 0xa8ad5055, 0x4bd7154f, 0xdf7bd11, 0x73bc98fc, 0x6350b05e]⟩],
  [⟨[0x4bf927a, 0x12ac5496, 0xe749323e, 0x9bb322db, 0xf6d99ad6, 0xc10c666d, 0x4c883e0a, 0xfdf8fb3], [0x665272e8, 0x10667f92, 0x5bf8702f, 0xa30d4ce1, 0xa2d6033d, 0x56314b47, 0xdac1a10e, 0x9ec90d9]⟩,
   ⟨[0xc9eb81d1, 0x364f06dd, 0x4dc5cb76, 0xfd181a56, 0xe264567c, 0x91cf010c, 0xa05c02fc, 0x71d9a95b], [0x53967407, 0xab5afba6, 0x9b0aa089, 0x3fc77913, 0xaf29ef02, 0xdf1d4912, 0x5796a0a5, 0x1c3d61c]⟩,
   ⟨[0xb376e8de, 0x11503a1c, 0xb8b98321, 0x5cb17d6d, 0xbd8fe9c2, 0x96c9d585, 0xd117171d, 0x48c8da7], [0xb582282a, 0xdf7fabb8, 0x24fd6bb7, 0x75c2a937, 0x633701, 0xdf0dbd32, 0x39b3e72, 0x4fb7aec]⟩,
   ⟨[0xe20c09a, 0xe60cce96, 0x116e1c38, 0xad295b31, 0xc04477d0, 0xca6b625d, 0xffa32e36, 0x32fe03b], [0xe2aaabc6, 0x46334fee, 0xda1c6871, 0x9808b03c, 0xf934a482, 0x76d0e3aa, 0xf9cb8f97, 0x2b0bf54a]⟩,
   ⟨[0x2ca29d02, 0xb5d52717, 0xdbeacf03, 0xf9daeafb, 0x113a3811, 0x3786e64b, 0x5c30569d, 0x6a01a1a5], [0xba1c28b6, 0xa91e160, 0x929d3f05, 0x5bfa32ba, 0x40c51084, 0x1108f875, 0x42fd5ae1, 0x37fd2383]⟩,
   ⟨[0x2a79bfb8, 0xabf14ede, 0xaa34300c, 0x8b34155, 0x64077041, 0x85c0dfa0, 0xf542d447, 0x3ae5d28d], [0xb74dc4fb, 0xc303a0fe, 0x556e0b87, 0xb75292fa, 0x51bdc64c, 0x785628b0, 0x13c579f6, 0x43fe786e]⟩,
   ⟨[0x5f08790f, 0xbc5898cb, 0x125644ec, 0xa298a59a, 0xb048217a, 0xd2d9627b, 0x7b1f23f7, 0x6dceef32], [0xfa7b9c6a, 0x7f02fc44, 0x73597bf7, 0x90c64960, 0x2cb0b3a2, 0x5dd7e4f4, 0x43e83553, 0x5ec5f92c]⟩,
   ⟨[0x59e2c8e9, 0xc06b4d49, 0x1df8ad8b, 0x7dbc8218, 0xdae8b6d7, 0x35570120, 0xcde2691, 0x4222a1ba], [0xc1693046, 0xd2f1efa6, 0x7d36d9cd, 0x2707228d, 0x62d499c, 0xd668ee25, 0xce2621a0, 0x7ac81bdf]⟩,
   ⟨[0x16f6a215, 0x3a9f04bb, 0x89e5494e, 0x739bb2bc, 0xd1ceb043, 0xcb8dbae8, 0x9a6b465, 0x6b177df0], [0x1a529744, 0xb7c4980e, 0xe9012b5, 0x3941b997, 0x4c6d677, 0xdf317b95, 0x829f51d6, 0x17898d81]⟩,
   ⟨[0xa12282ba, 0x3d48fd66, 0x899e5a1a, 0xb775465b, 0x55d95c35, 0xde0ccb99, 0x950ab9df, 0x4cb3ccdd], [0x175c4cae, 0xb4aba02, 0xcf86187c, 0x2da7c698, 0x9a9bf6ca, 0x3a4453df, 0x8bb9f543, 0x53c86f9c]⟩,
   ⟨[0x5b7db133, 0x806b815e, 0x118fa7c1, 0x2451d6ac, 0xfb0befc3, 0x32c148b6, 0xe433031e, 0x2e6ecef6], [0x54b2ee29, 0x2b78f317, 0x5a73bf01, 0xbc321bf9, 0xf8f7f981, 0xdf6f7840, 0x22280c40, 0x751a917a]⟩,
   ⟨[0x4f9161c8, 0x73efa631, 0x21145c52, 0xb61c5e68, 0x6a04dc52, 0x60947773, 0x2c2073b2, 0x758e38ff], [0x3a54541, 0xdc6fea73, 0xb6e65787, 0x5e77682c, 0x37370fd0, 0xafef6c1c, 0xd5ac255a, 0x33deef00]⟩,
   ⟨[0x61d35cc, 0x1ad81101, 0x8a77d246, 0xd55eed7d, 0x926e64c3, 0x8d59dc22, 0xafc6ffa6, 0x76c9d6ce], [0x3f4fcc0f, 0x945a89b5, 0x9087f46a, 0x65eb52cf, 0xae9f09de, 0xc3380377, 0x43dfd5fb, 0x59067edd]⟩,
   ⟨[0xcf841445, 0xcbb7bc66, 0xa3be7c94, 0x9ed681d3, 0x396c6dd5, 0xf5cf59be, 0xfa763634, 0x2598a5dc], [0x85cf4fde, 0xad2b445a, 0xa0d92f4c, 0xc8ce3f42, 0xf01cd0f5, 0x78356d5b, 0x5d50c9d7, 0x26e44a45]⟩,
   ⟨[0x4edf35a5, 0x22eb53e3, 0xaf1a8a60, 0xa0c6cdef, 0xd07c1ebd, 0x1d31ba2c, 0xd2c2ade1, 0x513511a0], [0xc4449889, 0xbd3772d4, 0xd3f49c61, 0xaf5ef819, 0x40047745, 0xaaf21599, 0xa54b8080, 0x2128938c]⟩,
   ⟨[0x73adbec8, 0x9761a94a, 0x1fb2f257, 0x4710bbf0, 0xb3920007, 0xfe52603e, 0x7de06f13, 0x66393750], [0x965ac706, 0x35f4e633, 0x33f953e5, 0xf49dc418, 0x31cfe467, 0x1562ad51, 0x8adb1f7a, 0x35fb54d]⟩],
  [⟨[0xfd73062e, 0xf632081f, 0xcb740b59, 0xb2740c19, 0x8751e315, 0x2dfd957f, 0xc21039c2, 0x5722e015], [0xa4e56d39, 0x44781bfc, 0xda2fbe63, 0x894bd2f7, 0x5de22de0, 0x9e81007b, 0xc68788fc, 0xced0859]⟩,
   ⟨[0x8dda6292, 0x97dd8cf1, 0x27fcf7f1, 0x3e9191f7, 0xdaa6ad44, 0x7885e32, 0xbe9f7e62, 0x624ce66e], [0x1893a3d9, 0x483da42, 0x8f2a105f, 0x1041b7ea, 0x429a24b9, 0x5b706f99, 0x167c12e1, 0x30bfbcee]⟩,
   ⟨[0xc38251d8, 0xeb2c7218, 0x22b6411, 0x5fe5d8f6, 0x93dccb63, 0xf62200c1, 0xcff221e6, 0x2cf0f8f1], [0x9217ee42, 0xdcf1bcd6, 0x9db2580b, 0x1904879c, 0xf6510164, 0x2ddb7e5d, 0x8a0eac6b, 0x7bb29985]⟩,
   ⟨[0xfcf8397, 0x98313c0e, 0x42c8eef1, 0xb594d0b7, 0x97e842f7, 0xbd31fc34, 0x8f3adb9b, 0x49476b9d], [0x50b45445, 0xd1b5fd37, 0xd583a89f, 0x526c51ca, 0x6782c060, 0x5d461f09, 0x27274a60, 0x414023ec]⟩,
   ⟨[0xeae4285a, 0x7c809b26, 0xa066043, 0x939814bf, 0x6c640e3d, 0x9cbac0bb, 0x30eb1b86, 0x647e22e1], [0x3c7dfa0d, 0x21e2a42d, 0xe2cd0cce, 0xff8cc304, 0x3496964c, 0x3dc8c920, 0x2b4df7c2, 0x5d91fe78]⟩,
   ⟨[0x96d84346, 0xd5bbbd6e, 0xf91ffa8c, 0x8363527b, 0x7f408588, 0x931d0fda, 0xb0b19d0f, 0x2c51f17b], [0xff61c86d, 0x7a693804, 0xb3ffd529, 0xbab4ac45, 0x4c171c84, 0xedea275f, 0xd59b94d9, 0x520925c]⟩,
   ⟨[0xe8718bb4, 0xb6a620aa, 0x88d37a61, 0x67851f0f, 0x9984a787, 0xcbee8dbc, 0xae834635, 0x7190b766], [0xc9ac1a8e, 0x3a1d7db4, 0x7b97bcb7, 0x6eebd5ad, 0x9d0ab769, 0x60978625, 0x7c7f02dd, 0x5ad56c0c]⟩,
   ⟨[0x2db3b6f2, 0x2c0003de, 0xefcf1dd8, 0x3be1ce3f, 0x379e6b8a, 0xe2f79872, 0xb898094, 0x3f9640d8], [0x15b29d41, 0x11ebd937, 0x3ef17d8c, 0xd6a076b9, 0xb38ed3ba, 0xa2c0016, 0xccb161cc, 0x64329a02]⟩,
   ⟨[0xb1ed1dea, 0xd135032d, 0x42f734a0, 0x43f76848, 0x3c18d8c5, 0x1f6c12bd, 0xc0a304e8, 0x7d7757b7], [0xde3b6b9f, 0x3f0c2867, 0xb7201e4f, 0x72f98ebb, 0x940e748d, 0xcc408000, 0xad74b322, 0x34fe6d8f]⟩,
   ⟨[0xe6d884fe, 0xa12a9359, 0xde063103, 0xb080a081, 0x97abb854, 0x672de27d, 0xee6f3485, 0x712b0883], [0x2044a2a2, 0xf430bf2d, 0x7d12027a, 0x66561020, 0x2c539c3b, 0x5ed63ad2, 0xfe5ee1d1, 0x7982aad0]⟩,
   ⟨[0x3be94d26, 0x873dc8f6, 0x4b41bd76, 0x90923639, 0xcbe4b5c, 0xe439a496, 0x11782bf1, 0x424f8d24], [0x49686ed9, 0x6612bd99, 0xfb04e27e, 0x78157aa9, 0x805f809c, 0x844e1616, 0x62cb8bcd, 0x717aeb32]⟩,
   ⟨[0x5248cf6a, 0xe98c1a0e, 0xb0e4adf8, 0xc84294a8, 0xa7769275, 0xd35748a4, 0x3363c82, 0x2c3867e1], [0x8f43885a, 0x2ec7af43, 0x3ae516c7, 0x7979d1a2, 0x8b81056c, 0x59939ec, 0x7e358480, 0x434aa4dd]⟩,
   ⟨[0x4a5228ea, 0x12ea1c87, 0x4d293b9f, 0x47b48198, 0xe9696688, 0x319ce379, 0x7ce6fd05, 0x7c9ff595], [0x3093e3e4, 0x15e954df, 0x304015af, 0xbc98307c, 0x975c69c5, 0x66522df8, 0x963ce892, 0x4c9ebfb3]⟩,
   ⟨[0x628fb125, 0x1ceef18a, 0x4bf30bb6, 0xfb69a234, 0x70c9c864, 0x510eb339, 0x8a89151d, 0x1ee9d1ed], [0x4ee1a486, 0x34094028, 0x2fc79cee, 0x66440167, 0xc7da3a75, 0xb597625a, 0x65205af9, 0x6e5b920e]⟩,
   ⟨[0xd87c914c, 0x749d0ca4, 0xd60c59e, 0x55ecbebb, 0xa65b4652, 0x916a1127, 0x4e4767a3, 0x503964d4], [0x1b1f94d5, 0x8899a4c2, 0x33e0d94d, 0xeffcaf52, 0xa3dad87d, 0x61b89b3f, 0x5088d6be, 0x3cb455f5]⟩,
   ⟨[0x70678c14, 0x5088a52b, 0x41b00fc3, 0x212823d9, 0x19865bdb, 0x38d5ceb6, 0x12e63491, 0x2e9c7fd7], [0x59e73913, 0x6656f916, 0xe9035a63, 0x57ae9a47, 0xf02b8dae, 0x970dcf2b, 0x950ff8a9, 0x3366f8a6]⟩],
  [⟨[0xac4a8f83, 0x93dabd6f, 0x1cff0aad, 0x27233488, 0xf500edfb, 0xbcac3181, 0xb5297515, 0x27c6db15], [0x2f08a89f, 0x9cd142d9, 0x2ead0a80, 0x3c005423, 0x44a7623a, 0x82845f95, 0x72bc4862, 0x51047070]⟩,
   ⟨[0xdc1b9159, 0x4303797a, 0x5d9c9ac1, 0x7842434b, 0x6009fe2e, 0x8a36ed2d, 0x5106429c, 0x11fe35c9], [0x23554a92, 0xdf20a393, 0x932e37c2, 0x59364a48, 0x7754a5df, 0x6d7de6ae, 0x462725ac, 0xccc6a3]⟩,
   ⟨[0xbae83077, 0xb1f86ca5, 0x5110782c, 0x82fe28a5, 0xd942182c, 0x8031bbf3, 0x410d9f83, 0x4f1f3815], [0x835aba65, 0xe57f9907, 0x5aa10903, 0xa8220c2, 0x8812602e, 0x2e984717, 0x2a7d2c6c, 0xaec467d]⟩,
   ⟨[0xc4dbed03, 0xc779f708, 0x8582bd4e, 0x10a30cd8, 0x243feaee, 0xfa5646c5, 0xca459ef7, 0x1cfaf38e], [0x95bc8077, 0xccdd0146, 0x65858c49, 0x4ecde919, 0x77fee1b6, 0x562764c6, 0x43524407, 0x3cf5a3ab]⟩,
   ⟨[0xf6ef445, 0xcceaadd, 0xc297afaf, 0x690c12c1, 0xc15b3d7b, 0xd67aa6ea, 0x9ff8884e, 0x445d233c], [0x6cad3234, 0xc38ffd09, 0xc7002f6f, 0xa690ffd1, 0x11acb469, 0xd445e851, 0x97166e52, 0x64ee1380]⟩,
   ⟨[0xcefbfb0a, 0x1eb031cc, 0xaa40d6a9, 0x60f3def4, 0xf96fcafe, 0x240f7ca5, 0xe4450a06, 0x53af2f10], [0xa84058ef, 0xe8af980f, 0x34affc6e, 0x3e300017, 0xc86b458c, 0x62d1d094, 0x75732c7e, 0x5338383d]⟩,
   ⟨[0x4d82638, 0x6bd46aeb, 0x62e645a0, 0x86940a31, 0xa5736b40, 0xd025b4b1, 0x924e8e5e, 0x1056d9d0], [0x1db58101, 0x3d0495cc, 0x2d677581, 0xc300c6e7, 0x610aecec, 0xfe38b898, 0xd66f64ed, 0x1c8b94e2]⟩,
   ⟨[0x6d0c7ec, 0x5c9c3a37, 0xb8a74918, 0x6b4b5437, 0x9052a235, 0x85689c98, 0x87b53aa6, 0x4f7c2c8d], [0xd8f1d334, 0x9fcd866f, 0x6898223c, 0xdbaaa227, 0x95c7b35a, 0x933de9da, 0x3ea949fd, 0x329ae20f]⟩,
   ⟨[0x948a2ecd, 0xb83547af, 0xbe34890c, 0xebf7c1e7, 0xf8211c33, 0x5f0f44f3, 0xc6927638, 0x14a10bdb], [0x5b579bf5, 0x7fd88567, 0x5b7417f0, 0xd7c71281, 0x2083502e, 0x7c04f111, 0xe9ad6283, 0x42029128]⟩,
   ⟨[0x2c5c0928, 0x32fbffae, 0x1469f1d3, 0x4e31d312, 0xd79f51a2, 0x17307e28, 0x79a51ebd, 0x546c91af], [0x668086a6, 0x41d464d, 0xdb695db, 0x4986bde5, 0xef317aa0, 0xcba5f6ee, 0x730221d3, 0x5879259f]⟩,
   ⟨[0x253bb4ba, 0xbd9c5ca5, 0xe2a75bb, 0xbbfc6079, 0x67ab9033, 0xb5f11ae3, 0xac2bfafe, 0x6411cb1e], [0xbf5390b0, 0x750734fe, 0x879a3d3d, 0xa044bed4, 0xa0c47093, 0xe1e9f0e4, 0xb64da48c, 0x3bcad93e]⟩,
   ⟨[0xb37e16c2, 0xafc6bcb6, 0x2331b0cd, 0xb54f56c0, 0x5bbfbee7, 0x725e81b4, 0xe8b9d922, 0x2ae0c039], [0xdb958319, 0x85301041, 0x681c4a4, 0xdfae34dd, 0xcbf7bb2b, 0x906c9219, 0x10a1710a, 0x1463e9ef]⟩,
   ⟨[0x21e6fc9d, 0x41e6c388, 0x24a39ec8, 0xb629a1e, 0x1aef7a46, 0xc62f60be, 0xc5a16b6e, 0x59a50b54], [0x285b891e, 0x41ca367a, 0xe2f8af59, 0x70a6ce6b, 0xcbceef98, 0x74058747, 0x601c375f, 0x4b912170]⟩,
   ⟨[0x734ee866, 0x7d975ce2, 0xa09f5f14, 0x8d3572c6, 0x2232ee5e, 0x1db4cc88, 0x7c04c250, 0x6c979049], [0xae1ebc20, 0xb5ec7706, 0xe21aaa32, 0x7bdbd34d, 0xc5d1c733, 0xad4125fd, 0x731e6b09, 0x28b0302d]⟩,
   ⟨[0x1521415e, 0xd68eec49, 0x92763c0, 0x31963424, 0xbfb513b, 0xca90f48d, 0x573a056a, 0x4814ddff], [0x400e804d, 0x7e67599c, 0x51fd0596, 0x35452750, 0xdb331b66, 0x45edd7fb, 0xbdede107, 0x172da8b3]⟩,
   ⟨[0xb5beb1c8, 0xd46f284c, 0x7b125701, 0x5de5d3f1, 0x248053d1, 0xc3ba591e, 0x9c8f487c, 0x4e67f1f2], [0x8c252ec5, 0x380d93e4, 0x22bc5cf6, 0x913f96f1, 0xd7baa634, 0xc1f06bbd, 0xa30bf1b9, 0x7b625179]⟩],
  [⟨[0xabd424ac, 0x125d398d, 0x9cc70479, 0xfe65df03, 0xfb5ec82c, 0x89a31794, 0xa31c5dca, 0x63effb55], [0x45b576a, 0x948f7571, 0x22b5fc8, 0xec9f6fab, 0xbd9f0dd2, 0x174dc936, 0xf4c4ee8b, 0x5eea65e6]⟩,
   ⟨[0x8b800d67, 0xe97070ae, 0xb59b433e, 0xb9cb66fa, 0xc6141364, 0xc4496574, 0x6a9677ea, 0x530aa9b5], [0x75200533, 0x4a4e2ee3, 0xf20a9be, 0x4c38a509, 0xea683510, 0xa6ffba4, 0x65732ea9, 0x7340efee]⟩,
   ⟨[0xe41c2b43, 0x3a5612e4, 0xfcb5c0a8, 0x31f51b80, 0xbd1f03e6, 0x4c5bba64, 0x3694adca, 0x25387243], [0x1f7e4d5c, 0xf114efaf, 0x4ea3a59d, 0xbea5223a, 0x67eb414d, 0x82cef46f, 0x9b6cac3d, 0x9d351c1]⟩,
   ⟨[0x810f5054, 0xc69f25ce, 0x548a2cdf, 0xe33e5e97, 0x36946d3c, 0x20b3f442, 0x65df2d3b, 0x572c0f5c], [0xcc953cc8, 0xfc5b2df3, 0xd1ccadc6, 0x934d54c0, 0xa6e7b4db, 0x828a906e, 0x5ad3076f, 0x610d36c1]⟩,
   ⟨[0x74f56e27, 0x960b0a01, 0xcf3fea75, 0x9942c6ac, 0x82c51490, 0x2e4d786d, 0x9a4749c9, 0x23a51636], [0x2f7560fc, 0xd86ab36a, 0xddb852a9, 0xda66b49d, 0x544c1023, 0x84e1587d, 0x6aa3c1da, 0x7ab8bc69]⟩,
   ⟨[0xa5f30701, 0xfd0397af, 0xdfc8b187, 0x96ffb15d, 0x1475e520, 0xf2c86453, 0xef37300e, 0x71521986], [0x68006d45, 0xd81f75a8, 0xcbc06d4d, 0xdf7814ea, 0x2e8e9150, 0x5bcf959b, 0x56668c18, 0x146d37d7]⟩,
   ⟨[0x88e8dc77, 0x1abd7312, 0xc1c3a4db, 0xb34b877, 0xf844bace, 0x85739093, 0x4a7cf80, 0x5dedcf8f], [0xd87cdbdc, 0xd8bb237e, 0xccba784f, 0x89852174, 0xb2faecc3, 0x6843bab8, 0xaa4bba32, 0x15268302]⟩,
   ⟨[0xb23d3770, 0x3b58225a, 0x10cc9de6, 0x9357eb59, 0x42ecf80e, 0x8665f92a, 0xc875c031, 0x4819cc9d], [0xc34b979b, 0x9cbe5d8, 0x7e1d0e63, 0x161e8ac0, 0x282e36e8, 0x874df24f, 0x712a0cd, 0x6528e6fa]⟩,
   ⟨[0x107633e4, 0xe37ad786, 0xcf1fe646, 0x122d7123, 0xcfa93ac0, 0x1e6e682b, 0x276200db, 0xa25f4ee], [0xe25fbb01, 0x44e290ed, 0xc3c1b418, 0x3e392df5, 0x83ebe689, 0xe5e15745, 0x4b999926, 0x16139d2]⟩,
   ⟨[0x65d7da58, 0x48915b0, 0xa78f3d9e, 0x6ef7c4ef, 0xad614974, 0x78ccce55, 0x54b95643, 0x43db7da0], [0xe53f1a67, 0xfc423b70, 0x4efe2427, 0x8f8bed81, 0x95b045eb, 0xf5d6ad5f, 0xd7407716, 0x23582d5d]⟩,
   ⟨[0x9f674472, 0x9e5d24fb, 0x68626041, 0x1ae18636, 0x7abc4380, 0x8977e68f, 0x5af2d04, 0x7d9ff8e8], [0x4197c4e1, 0x9d31195f, 0x4400f35e, 0x9f3f6e11, 0x7bbef801, 0x1a87d586, 0x952bb025, 0x42ae0380]⟩,
   ⟨[0x6b96482b, 0xc6a3ed75, 0xa9c6dd2f, 0x58b38724, 0x9297fb47, 0x464c8ce8, 0xfb6d6c55, 0x245797e], [0xc0b58c8f, 0xbe141c80, 0x77766c48, 0xc4c405cb, 0xd10c0f31, 0xd57ee428, 0x50e8fe7b, 0x3d4862b]⟩,
   ⟨[0x1dc3722c, 0x21976f8a, 0x5f476f0d, 0x2ec30d5, 0xca434b06, 0xd711e01d, 0x99ff2488, 0x551ac910], [0xa56ca3c7, 0x24aec72d, 0x891896ce, 0x2dd1219a, 0x67882925, 0xd84bad19, 0x9d4778ef, 0x27e65d7f]⟩,
   ⟨[0x4685687f, 0x9f19c8f, 0xbbb58bd3, 0xb7c7b9e3, 0x8fa34dd5, 0x349d03a7, 0x8d59e889, 0x41f9d003], [0x2b3ed6fa, 0xcf3367d4, 0x378da1ed, 0xcf3c6715, 0x4e935e9a, 0x86dc3903, 0xf08cb23a, 0x50692cff]⟩,
   ⟨[0xc2d65c87, 0x18ca772a, 0x4f1d0cb6, 0xc9092b38, 0xbbd2015a, 0x91e71cf1, 0x4f3def26, 0x4a09daac], [0x735c9281, 0x7cca7b4a, 0x1bf0aaee, 0x2028f144, 0xacb5b748, 0xcf72a082, 0x43299b85, 0x58957d5d]⟩,
   ⟨[0x901f1789, 0x64bb164e, 0x5aef97bf, 0xc68766e6, 0x942b6dce, 0x30eca3e2, 0xf9e798f3, 0x632676fa], [0xf13896ee, 0xb52533d3, 0x2d8a29c1, 0xad912831, 0xbc14e7ff, 0x12f1b9a4, 0x8828d196, 0x4e1d23fd]⟩],
  [⟨[0xef494793, 0xc4f89e00, 0xc93d2f55, 0xa6044bc3, 0x8797f8af, 0x68e60b58, 0x841e4b5e, 0x4d5969fa], [0xd759bb2d, 0xb1ee70fb, 0x66d8ad01, 0x9ac30433, 0x84e9f677, 0xd93f23db, 0xc53029a4, 0x2ad9d16f]⟩,
   ⟨[0xdd882d23, 0xd01fc16b, 0xfa5b4128, 0x3bf921f1, 0x235bc9ce, 0x3d3fe145, 0x62e686e1, 0x59556716], [0x79f99d69, 0xe329a7c2, 0xa4f5f5f5, 0xa67ef5ec, 0xd5a34ff0, 0xf96a41ee, 0x74674b5f, 0x9d0cf06]⟩,
   ⟨[0x6135b7e2, 0x8ccdf71c, 0xafb6ad6b, 0x91f1e33e, 0xdb0cfedf, 0xc452f439, 0xc05b06d4, 0x15724711], [0xa3bc1277, 0x5fee0e0e, 0x8d8ba081, 0xd6847fad, 0xd4c8ddd, 0x8b02666c, 0xc35559db, 0x149e5009]⟩,
   ⟨[0x5461d9ca, 0xb4d0d2c9, 0xce0a3973, 0xfe7993b6, 0xd6032e95, 0x42b2a500, 0x217131c6, 0x4deee35a], [0xffe7c2eb, 0x94e65c8c, 0xb19d4b4a, 0xdad7785, 0x925613f9, 0xeeba6794, 0xe30494cb, 0x6af45bbe]⟩,
   ⟨[0x32f43f67, 0x41352a61, 0x48f886d3, 0xd218de9, 0x9b33b0f6, 0xcdfc0c55, 0x6c5b90cd, 0x21fc6353], [0x7898aff2, 0x5d8ca5ad, 0x24287c30, 0xa743f80e, 0x9084a3a2, 0x4d037131, 0xb5efc978, 0x52041eed]⟩,
   ⟨[0xcc1bcfcb, 0x80b588ee, 0xe5ce0035, 0xad871a11, 0xf966d746, 0xf47224d0, 0xb387fcc2, 0x5215a9d2], [0x695c02af, 0xc54eb2e7, 0xdfc8493d, 0x36fd06bc, 0x98ce7c76, 0x1ce8a9aa, 0x644d398b, 0x58dfcbf]⟩,
   ⟨[0x5bb81464, 0xcd7e67dc, 0x47a7789, 0xe7a19301, 0x573e837b, 0xccc31ee5, 0xaf7703d5, 0x25ee99af], [0xddb3e807, 0x34fdd6da, 0x109092dd, 0x273d8288, 0xb7357633, 0xf8f2464f, 0xccaa31d5, 0x26b2cbad]⟩,
   ⟨[0xf707f9f7, 0xba9cfede, 0xac4975fb, 0xa9a6896c, 0xbb1c35e4, 0x62135d9d, 0xcba133d2, 0x13ae840f], [0x4c2ba3a9, 0x6abf3913, 0x6d8a62c1, 0xe4d8508a, 0x66d96607, 0xf2565354, 0xb6cabae8, 0x5c368cce]⟩,
   ⟨[0x8b3999bb, 0xc3b52e8, 0xef691871, 0xb752e28f, 0xf17d0d2d, 0xa0460abc, 0xb7741f2c, 0x7ddce3c1], [0x3673000f, 0x76a6bab, 0x425e8a9d, 0xcdb1cd2b, 0x2606eab5, 0x357fcfff, 0x35de7b4, 0x308644f8]⟩,
   ⟨[0x6d6ff45e, 0xba64a127, 0x6b0c3cef, 0x1f52b6ae, 0xcbf496cb, 0x91295179, 0xa1b12be4, 0x2b986fad], [0x44dbaf57, 0x243d2366, 0x346e88c2, 0x48e22bba, 0x8bbafa0d, 0xcdfb7957, 0xd70670e, 0x94ed36e]⟩,
   ⟨[0xa0d60407, 0x2bad1539, 0x6e744111, 0xc1a9286e, 0x81a6dcaa, 0x6d08c0db, 0x80afb34f, 0x108f35ec], [0x1e3e34ae, 0xbe79a6e3, 0x16d524e5, 0x206eaa28, 0x344aba64, 0x563b6e1c, 0x3207ca68, 0x6c362a61]⟩,
   ⟨[0xef9a9a0f, 0x4d8145b, 0xa15b6247, 0x8b57559b, 0x303afbf3, 0x72d53570, 0xd6db5736, 0x1c36b41], [0x1173b5fa, 0x94d583c9, 0x13c8aaa, 0x71f8e12d, 0xf29cb838, 0xa4b5a532, 0x7ce4eba4, 0x4b179700]⟩,
   ⟨[0xce86fc3, 0x69cfa7b0, 0xd60e076c, 0x3705d7c0, 0xb1091e10, 0xb1a1464a, 0x7fe80950, 0x97945a9], [0x9aa381e3, 0xd9c71a95, 0xa410ff56, 0x2a929073, 0xf0feb121, 0x79ef8353, 0x5f3107e5, 0x1437c4b0]⟩,
   ⟨[0x621db2e5, 0xc5128c8b, 0x51a9499a, 0x4e9c9b2e, 0xd8cd7594, 0x11535880, 0xb0697c07, 0x35a26f59], [0xc43b624e, 0xab3f4b75, 0xb8e03e6b, 0x69f82105, 0xfb04e036, 0xfb268288, 0xa0bdb41c, 0x6a5e6bd3]⟩,
   ⟨[0xc8082916, 0x8c716a1a, 0x4592472c, 0xb1d1b152, 0x3ab6938a, 0x63657a6d, 0xf03214ae, 0x44882eb6], [0xc615af7d, 0x19575b8a, 0x35ee3d98, 0x14d740c1, 0x57768d2d, 0xbc478e89, 0x13fc5e4c, 0x30cc8fa2]⟩,
   ⟨[0x4ebe1e7c, 0x705607c5, 0x284eda2b, 0x631e5b88, 0x7f54ddb, 0x7e9e39c, 0x8dcf6bc5, 0x4e554d88], [0xcbab0fe, 0x12e9fb20, 0xba5e007f, 0x6f3bc7ce, 0xbc871df6, 0xa770ba1d, 0xfe01142c, 0x541aa4c6]⟩],
  [⟨[0xf2412ec7, 0xbfe26700, 0xcfe96af4, 0xe975796, 0xdd6b04f7, 0x7d30bf7c, 0xf1d8fce4, 0x5421925d], [0xec709107, 0x1cf5e9f5, 0xb4580aa9, 0x124fcfc2, 0x67a835b3, 0x2f7012b, 0x47c0760f, 0x753fe01b]⟩,
   ⟨[0xb1d2a896, 0x82fd5d47, 0x54e75ddb, 0x7eabc175, 0x1ab080bc, 0x724fc3a8, 0xa75c31dd, 0x363d6016], [0x863f308f, 0x5d465ff2, 0xe515adcb, 0x9ec70664, 0xb3bc206a, 0x4bd7a1a2, 0x4a167d34, 0x2022576c]⟩,
   ⟨[0x5cd6ac65, 0xf5ac3451, 0x5839f554, 0x7629731e, 0x93545a60, 0xa3260ae3, 0xa7ad1979, 0x49d190e8], [0xf0b35045, 0x5aa8492f, 0x2584e651, 0x4a5fab7b, 0x395e2aae, 0x5a05420e, 0x547b4038, 0x30613c78]⟩,
   ⟨[0xf9dae7e6, 0x47e1c59d, 0x247a5a9d, 0x8d68839b, 0xc1a80d5e, 0x663b5977, 0x40d8cf32, 0x5e51f872], [0xece49494, 0x88adbf9e, 0x1792bae8, 0x40b4ac5c, 0x9a1b3314, 0x278200d1, 0xd9f83584, 0x7d15320e]⟩,
   ⟨[0xeaf2bff8, 0xfe6daa74, 0xc156aa6b, 0x6e4ee4c0, 0xd0f4e7d5, 0xd9310ff8, 0x7bb0c42d, 0x552eef9e], [0xfdc69e1a, 0x323ff6f1, 0x41d79365, 0xfa66b7, 0xa96b22b4, 0x6b16e, 0xd20f07be, 0x71bbc653]⟩,
   ⟨[0xa440fa1c, 0x89a7b7ee, 0x757cd658, 0x52bb5278, 0xb0cddea4, 0xc5906f4b, 0x5de2d8da, 0x66aaafee], [0x53b6e226, 0x4d5e016a, 0x1993a1d7, 0xa2f73dc6, 0xa09dd554, 0x7cdd4c1d, 0xab416627, 0x6f723079]⟩,
   ⟨[0xc4e5c4af, 0xe641639e, 0x371cc648, 0x8bc6100d, 0x9b216e8a, 0x7bd161b1, 0xf810db32, 0x58098aeb], [0x5ad92372, 0xee52bb46, 0xeef938ca, 0x4b2c48e1, 0xab43a5d0, 0xe8fde4d6, 0xa5284c83, 0x459274cd]⟩,
   ⟨[0xd015095d, 0xa98925b0, 0x4611a1a5, 0xc8969f5f, 0x2ce4663b, 0xbddcd62f, 0xa076c8be, 0x1c9d9007], [0x749f7be5, 0xe8de8890, 0xff208e75, 0xc9e455e7, 0x8f5fac9a, 0xdcee17a9, 0x68a3a666, 0x776b72d3]⟩,
   ⟨[0xfee0e89a, 0x28c7d648, 0x463af60d, 0x621b370f, 0x5adc8acd, 0x9dc1548e, 0xa0b49504, 0x48032acf], [0x85e992d5, 0x146c6eac, 0x5cb491e0, 0x5a2cb577, 0x454c120a, 0x669dd6d4, 0x98203c39, 0x3431ab33]⟩,
   ⟨[0x9de017bf, 0xe8761503, 0xb60ae61f, 0xab117d2f, 0x827937ff, 0x846463f, 0x6bd89c65, 0x45e6bd40], [0xa613bdb8, 0x3160ad67, 0xb8714a49, 0xbd5266f3, 0x51a233e4, 0xf7d29c47, 0x4de6a90c, 0x6887b48d]⟩,
   ⟨[0xdfde1ef8, 0x87290a5, 0xa166950a, 0xc70ccb52, 0x4a170aae, 0xaa7f095b, 0x5517ca0b, 0x15301f4e], [0x302f1f84, 0x3c86b787, 0x44676e39, 0x95d41535, 0x9df5f751, 0xbfec4ae3, 0x304923d3, 0x4a0d3986]⟩,
   ⟨[0x79b1390c, 0x70faaba9, 0x62ba8b9e, 0xa9067eee, 0x1e17df6f, 0x98789503, 0x78d5b295, 0x5997e8ae], [0xae0c6768, 0x31e13ad7, 0xef17a7b1, 0x23262f05, 0x49b7b101, 0x15803227, 0x36b5ba70, 0x1234a9c5]⟩,
   ⟨[0x395793ac, 0xed65c961, 0xccde1c47, 0x1157cd8, 0x1d5614df, 0xd0240b0, 0x568e83a5, 0xf0da1ef], [0xc0b783c1, 0x57c90846, 0x81e2f613, 0x4501048c, 0xa2709dc1, 0x3d8a69b, 0xa97cce0e, 0x6f365c4]⟩,
   ⟨[0x551580cd, 0xeaf23159, 0x53dd5ee, 0xf1e586a, 0x3cbcc3d5, 0xeb7a78dd, 0xb014b850, 0x39bbc65a], [0x79b61ac7, 0x13da4e85, 0xda59e37, 0x33e78dcf, 0x2a643c4c, 0x4e65af25, 0x8869d03, 0xdc38c97]⟩,
   ⟨[0xa3a38837, 0x2b648345, 0x905e261d, 0x2fa6d8f7, 0x66a14946, 0xa23bd786, 0x5e01cc9a, 0x781633fd], [0xe2c71ad1, 0xb1352709, 0x83a6d365, 0x9d745052, 0x66567032, 0xd88b5cae, 0x53d875ca, 0x27fc40df]⟩,
   ⟨[0x47f7554f, 0xb254e54c, 0xd708614d, 0x33ad0ed6, 0x76ce908d, 0x830566a3, 0xaa1add5c, 0x73df94bd], [0x2dbdd8a3, 0x23ec411f, 0x3a979fdc, 0x9ba47338, 0xc667e9f7, 0x56a2c27f, 0x427e6bfb, 0x295647c7]⟩],
  [⟨[0xf8e48c13, 0x9b5f4652, 0x9eef4ba3, 0xe979034f, 0x7cf5af6e, 0xf95fd776, 0x506ceb46, 0x4236c47e], [0xe08d2312, 0xc02a249, 0xc056499a, 0xaa5a38cc, 0x7c188b64, 0xcb26a8e2, 0xae373d5, 0x38fb961d]⟩,
   ⟨[0x7b23470d, 0xeb179c9e, 0x1ebc44e7, 0xae70102f, 0x92e0eed0, 0x8184c1d4, 0x5c21bf08, 0x32988281], [0x8180d11e, 0x46958967, 0x7fd7278d, 0xebd5518c, 0xad2b74f7, 0xfceb7f68, 0xf9c7b6da, 0x82d2011]⟩,
   ⟨[0xbbe0299d, 0x65d5aed1, 0xcf565a0a, 0x77f756, 0x344bb90d, 0xd44fcd6b, 0x536f3f25, 0x6c2a19c0], [0xbb2a4d91, 0x32ee7439, 0xed9351e1, 0xa97e677a, 0x413a16e0, 0x6752edcf, 0x1ce4fbe6, 0x5de1b0c7]⟩,
   ⟨[0xd6009b36, 0x6c10da15, 0xe5d8cfbe, 0xaad05f4f, 0x31d58b76, 0xd8bce0b4, 0x27b2811b, 0x8de344e], [0x80b51e48, 0xd9a78aae, 0x3e41c63a, 0x1e1d0a81, 0x8076b3c7, 0x844376de, 0x5fdf9d53, 0x73f0d4a3]⟩,
   ⟨[0x558c7719, 0xf1532922, 0xa8221197, 0xf10188a, 0x5ddc1716, 0x51a97e5f, 0x444789e7, 0xf583a9b], [0x97d63b87, 0xaa8fc58d, 0x1cfda59c, 0xa5af048b, 0x2ddb34eb, 0x2a4a0c5f, 0x701e2e07, 0x66c0f0c7]⟩,
   ⟨[0x36be2abf, 0xc0bc88b8, 0x5c721b85, 0x265cce74, 0xd54299ba, 0x483ebb01, 0x348ed89e, 0x18f11cbe], [0xe42129d4, 0x5e9ae7b9, 0x81de5b77, 0x6b3e9e8d, 0x7a14a74a, 0xb3adbac9, 0x3b266, 0x1b6cebb2]⟩,
   ⟨[0x15eb200e, 0xd4d4dd10, 0xfb87c57b, 0xeeaea4c6, 0x72ff6321, 0x48f0b957, 0xb782b01d, 0x187c4b75], [0xe9b4d622, 0x3dc1aacd, 0x3f4ed519, 0x358418e, 0x773d019c, 0x981a24f8, 0x3db0b4f4, 0x6643ca91]⟩,
   ⟨[0xd47670e3, 0xe3254f4b, 0x30b1dde9, 0x98226125, 0xda8af160, 0x61eb6c86, 0x18363269, 0x725c7716], [0x2f62462, 0xb051dc9f, 0xac5531, 0xff8c9edf, 0x962a92a3, 0x3909c79b, 0x27790237, 0x25c90d93]⟩,
   ⟨[0x88adc475, 0xa5df2cc, 0xe5d27d0a, 0x48d26967, 0x359ff194, 0x21d5f616, 0x89977ce2, 0x38acd141], [0xfdaa8acb, 0x39b9bd92, 0x35b62d0, 0xdb157df2, 0xb7d252d9, 0x4e33386e, 0xcf196258, 0x6bd2e33f]⟩,
   ⟨[0xce8f10c5, 0xe0806297, 0x8a14b746, 0x446afd6d, 0xbf566190, 0xd7931f29, 0x86fdb72a, 0x4d9cfbfa], [0x95009f63, 0x77528851, 0x34c0ff45, 0x5fe50134, 0x6e134b81, 0xc38cabbb, 0xe36db037, 0x2e60b277]⟩,
   ⟨[0x57184ca5, 0xa614cf67, 0x25be01e3, 0x6cbd8d63, 0xa0030be3, 0xe313ee8d, 0x2b1e7c60, 0x69af0399], [0x50423f30, 0x519abfbb, 0x486b9519, 0x200111ff, 0x3351f692, 0x6ff93ccb, 0x3ed9be71, 0x32eb3e54]⟩,
   ⟨[0x54052ebd, 0x851acb9, 0x6d2336d7, 0x3a389b7b, 0x17c6acd9, 0x50a87925, 0xb807d9b1, 0x31fe845], [0xe22f7492, 0xa348bb01, 0x5f39661, 0x9547ed36, 0x68ec4ac2, 0x97df6756, 0x85b7f81b, 0x5836fefe]⟩,
   ⟨[0x5f0b2acb, 0x4e4869a6, 0xdec46001, 0xc4798f3f, 0x903474, 0x281a4ed6, 0xefb9aabd, 0x4f22e9d], [0xfaa721a4, 0x2ac92264, 0x276f8041, 0xbce2ff0b, 0xe4943926, 0x5f605607, 0x55506df7, 0x388c5fab]⟩,
   ⟨[0xab5687e2, 0xff104f6d, 0x3b2d0245, 0x1b6dafe9, 0x81b2ec4b, 0x6405c026, 0xf489ebbc, 0x2b7676da], [0x6da1f57a, 0xbaa158f0, 0x27a8457f, 0x9cb044ad, 0xa3bbd6c9, 0xc23737a5, 0x1d2267e1, 0x71fb5b47]⟩,
   ⟨[0xd14f56e4, 0x779bd825, 0x8396f23, 0xd7e672a0, 0xd40ba6ee, 0x23fe3fc0, 0x3b56a3ab, 0x41e749e7], [0x72042f67, 0xd19471ce, 0x4989d4d7, 0x8a686da7, 0x4fa09bc9, 0x52a709c6, 0xb3b6aa64, 0x1dc21162]⟩,
   ⟨[0xf9b3bd1d, 0x62c9838b, 0xce6384c, 0x1ee59e5a, 0xece8cc7f, 0xa9f5abf6, 0x80bdda83, 0x1961d80f], [0xca406fb1, 0x7a40880c, 0xdfbce2e4, 0x5035d307, 0x3d637299, 0x590259e0, 0xd6c34e05, 0x1607ac9f]⟩],
  [⟨[0x9d818b72, 0x4abc2710, 0x92607b7, 0x2496cea6, 0x55c4ec8, 0xfb1087e1, 0x258adc7d, 0x50a30c6a], [0xff502e3, 0xaf4eb6b3, 0x190607ab, 0x5d5d76ad, 0x34482c13, 0xc9c9b711, 0x42213696, 0x574a9718]⟩,
   ⟨[0x7018fc70, 0x7c90fafd, 0x2b83291c, 0x36a04559, 0x40d1b175, 0x6120b51e, 0x3dcf9606, 0x45f10b20], [0xf20c5636, 0x3c6a9eff, 0xffbbc648, 0xb2768ba3, 0xb523b36c, 0x1c9df90a, 0xd6ff34ed, 0x4148bf06]⟩,
   ⟨[0x3b5f9492, 0x3d29821a, 0x90b24561, 0xae12c782, 0x8a3bdc5f, 0xef6fb277, 0xac3bd74e, 0x6034bf3b], [0x4acb6f85, 0x131d57cd, 0x3be79b31, 0xded1c433, 0x78a896b8, 0xb0913489, 0xb287862c, 0x1247c0b7]⟩,
   ⟨[0x7c494054, 0xeb642893, 0x22142d26, 0x79227930, 0x943e8398, 0x8f1c8371, 0x60886db7, 0x583c7aef], [0x3a12ee0e, 0xafe46022, 0xb6cb8685, 0xe9c9253a, 0x6316a4c6, 0x5334f9dd, 0xe6f1dee9, 0x4e2f13d8]⟩,
   ⟨[0xb37d8ba5, 0x7499a5b4, 0x1c9bcde2, 0xa12aa637, 0xbfd6ae86, 0xcc99471d, 0x92048d63, 0x9966378], [0x552e71a3, 0x42cbfa9d, 0x675c1716, 0x84a8b153, 0x4cf00a7d, 0xb9c07c0e, 0xda504db, 0x32e2322b]⟩,
   ⟨[0xe671ee59, 0x569f581f, 0x422e86c7, 0x293522d7, 0x15dcef10, 0x5e4cea7e, 0x483c0fe3, 0x67c8a9fc], [0x47b79284, 0x4de5ac09, 0x25016ba, 0x22ab8fbd, 0x2a099b37, 0x51318c23, 0x49e06623, 0x542ea0fa]⟩,
   ⟨[0x28909f31, 0xdd240f64, 0x101b7f01, 0x46b66f9e, 0x20481c3f, 0x788c29ca, 0xca5d5182, 0x3218a509], [0x63e9a2b9, 0x64bcc7ad, 0xaddf5c0b, 0x3d213ca2, 0x9960d650, 0x6d93ed4c, 0x284ee5f3, 0x3f13db22]⟩,
   ⟨[0x6697e0d1, 0x5b678c3a, 0x16d9d878, 0x25a171f4, 0xfaec362b, 0xc20a6d80, 0xc512ea4b, 0x1bb3f14c], [0x2ae35fa5, 0xece5313b, 0xbbd76b87, 0xe390a01f, 0x882da3fc, 0xc78ea4c5, 0x42086a77, 0x771bcdae]⟩,
   ⟨[0x565802e9, 0x8e9e3c8b, 0x53fa1be7, 0xc37a7b35, 0x4408fb77, 0x9d2f1a26, 0xff308b7b, 0xb3ece36], [0x1f30fc37, 0x8fb35b36, 0x83e1a3c9, 0x463b44e2, 0x3402233a, 0x7218f09f, 0xfc9a6990, 0x1519638a]⟩,
   ⟨[0x8eaac478, 0x51fb3e5d, 0x760ed4ec, 0x620e4826, 0x1d865577, 0x46fc5b1f, 0x5244a538, 0x15ef2ad9], [0x4bf382bd, 0x8d7e477c, 0x2a5c9ee, 0xcbf170c9, 0x4afb0ec1, 0xb91a870c, 0x69c31425, 0x52ffc51]⟩,
   ⟨[0x2018d066, 0x1fd43746, 0x4c67fc35, 0xbc501517, 0xbc990eb6, 0xe65bc2fb, 0x73f87f92, 0x538ca6f9], [0x8352b03f, 0x42fbdae0, 0x99a4c9b9, 0xf265b1e0, 0x185ca070, 0x6e3eab2f, 0x37d0a2c1, 0x6e6f4f7d]⟩,
   ⟨[0xc2d5d73e, 0x9b20d8ee, 0x75844c15, 0x190521ae, 0x26ad08fe, 0x67663ac4, 0xf984ec06, 0x67aeefef], [0xcbdd87ef, 0x61c71142, 0x63396e3b, 0xfa4995b, 0x85c193b0, 0x3196e551, 0xdacb3a3d, 0x36c0a2a8]⟩,
   ⟨[0x178a1115, 0xeab89fdc, 0xd7c31303, 0xc7b764d8, 0x90203755, 0xa5b2d6fb, 0xd5f8aeee, 0x3c360bf9], [0x2f1cc3c, 0x8dfdcd05, 0x64e5269e, 0x7f8a64d2, 0xea13ffd7, 0xa36196ec, 0x77e3839f, 0x35e22415]⟩,
   ⟨[0xe22e0c52, 0x29e7ab0b, 0x8b27deda, 0x68bf32c7, 0xdc7971ae, 0x52a762a2, 0x18b0cdcc, 0x4ca43487], [0x3fceaf73, 0xed429da1, 0x6718d19, 0x49396e6f, 0x5bb3301c, 0xdecb9337, 0xff489b1, 0x4b7723c1]⟩,
   ⟨[0xabee6b9b, 0xae321f09, 0x37318f60, 0xf251bf4d, 0xb63dc269, 0xb0a8a251, 0x71817963, 0x514a25fc], [0x55c9b2e9, 0x518f5747, 0x1c9b4845, 0x3e56cc3e, 0x283ae1fa, 0xbdfd637a, 0xc3de778e, 0x419ba4b4]⟩,
   ⟨[0xbcd2eb74, 0xc7f18e93, 0xfc61fb42, 0x171264c8, 0x85119033, 0x27282e76, 0xd7db91c7, 0x225006a4], [0x1ecf5024, 0x628e0f3c, 0x859cde, 0xdc5111e0, 0x1f220711, 0x4ab1764f, 0x70dded3c, 0x7c6916f1]⟩],
  [⟨[0x5f0ca58a, 0xf9ffe8fc, 0x22879ebb, 0x9e34f30, 0xed7b0520, 0x648d6339, 0x1af5ecdc, 0xd6719d0], [0xb8590e4, 0x2878714d, 0x90ec312b, 0x827d04ed, 0x3b5767c3, 0xd415c8b4, 0xc09fd18d, 0x4170f0ad]⟩,
   ⟨[0x3c601031, 0x9b649cfc, 0x636ddae7, 0x478603a, 0x914e100a, 0xdc972dfa, 0x91621ae, 0x519c55df], [0xd4a9963d, 0x863046cb, 0x5acf7c0c, 0xdf16763c, 0xff5468a4, 0x4999a93e, 0x424074a5, 0x35543eff]⟩,
   ⟨[0xdd33307c, 0x27b1dbfa, 0x927ca6f3, 0xa0d04784, 0xa37cf855, 0xbd3ebc5e, 0x49f5aa2c, 0x59d02ef5], [0xbdd57bf3, 0xcdabe86f, 0x37819d86, 0x7b3add2f, 0x413b7b0, 0x7b90ba15, 0x6b99685b, 0x47071782]⟩,
   ⟨[0xef0ce97f, 0xb7c3218e, 0x898c79c, 0xdae3b56c, 0x908877d, 0x6349d83d, 0xc81e8c4e, 0x970c6c0], [0xa47f426c, 0xe45c4a7, 0x3fbb194e, 0xab000a59, 0x3a6dd13e, 0x570fbba5, 0xc8f44a57, 0x66045580]⟩,
   ⟨[0x12a72f7f, 0x5abeb749, 0x7ae56f4d, 0x15072a92, 0x222ab2c4, 0x1c77ae00, 0x9afe63de, 0x591eaec6], [0xdfd24304, 0xb51d41af, 0xdfbcc096, 0xde28df26, 0x38a20da7, 0x2f046c8, 0x1ae0a45b, 0x5ec3dbdc]⟩,
   ⟨[0x63dd86c2, 0x7c19bd75, 0x8d78a57b, 0xdb119311, 0x23c5c4e7, 0xf48bb4fa, 0x97db0a05, 0x65514c1c], [0x43cac49c, 0x1bc1f2f0, 0x2851b4be, 0x975feb51, 0xdd60d530, 0xe0a4633, 0x9b1d2c6, 0x32bbbf14]⟩,
   ⟨[0xa670eac0, 0x79124749, 0x31dd893c, 0x504d89d5, 0xe0654d63, 0xddced74c, 0xe2208707, 0x58956be5], [0x437e7077, 0xbe6a3ecd, 0x574095c8, 0xb8ab332d, 0x3869da42, 0x4e79ac1c, 0x68859f51, 0x79d4c3fb]⟩,
   ⟨[0x7936a831, 0x1e5fc1b9, 0xd74f1f41, 0x1ea42ed2, 0xc4ea3228, 0x33d22ec1, 0x729bebfe, 0x5705333f], [0x64596076, 0xdbd1a67b, 0xfa65ba98, 0x6bff269d, 0x6c47e715, 0x8451a9c2, 0x22898db3, 0x243d679d]⟩,
   ⟨[0xb8323fd0, 0xe935d705, 0x6937e5cb, 0xe2da8845, 0x4a5eae1e, 0x1c9dfff8, 0x45df7a79, 0x796f0b95], [0x640dba32, 0xc24d573f, 0x2e4b792, 0x2b775217, 0x94d12c40, 0xd437eb63, 0x4ad371f0, 0x6182af6d]⟩,
   ⟨[0x41fc7551, 0x133eda52, 0xe91714af, 0xa0088a2b, 0x5e0a73c0, 0xb41b9ac2, 0x1d3b3953, 0x4808bb5a], [0x2b9ae648, 0xd875aa14, 0x2408244c, 0x4f38c946, 0xff051a87, 0x4b6b941, 0x6df48ecd, 0x1d5b0b9e]⟩,
   ⟨[0x169e757f, 0x27fd368a, 0x7b94d9db, 0x2acb3560, 0x4d4c9b5f, 0x81903f4b, 0x169b81de, 0x641f806c], [0x9e957475, 0x574e9444, 0xc6c8ee52, 0xe08814ae, 0x6c84fddf, 0xd1ae71ec, 0xfaa040d9, 0x44a56014]⟩,
   ⟨[0x75a48f60, 0x6da6908, 0xbb2cd408, 0x7ba6c9cb, 0x3a1bcbff, 0x57d2d0ff, 0x8928ce36, 0x186f1a8b], [0x7a40f877, 0xffd205b, 0x1af68f7, 0x2915bc8e, 0xc36a5fb1, 0x816ac4df, 0x2c9e1f7d, 0x609b0a87]⟩,
   ⟨[0xb97536fb, 0x4032ac5e, 0xa7c5edb6, 0x53e6fe68, 0x5f0dcba1, 0x2f414930, 0x2837e314, 0x20975256], [0x3c3c1d27, 0xdf5dc496, 0x71797c36, 0xdfdaaf3, 0xda504e04, 0x5f3e9229, 0x8c234246, 0x354ea88d]⟩,
   ⟨[0x922d317, 0xaf6741c3, 0x9df0a572, 0x7429853b, 0x1dc207a8, 0xea1ae04, 0x450075f5, 0x2c1daa1c], [0x6ed729b4, 0x27c71f16, 0x53ab8ec0, 0x785718a6, 0xa8465487, 0x1eec7bbf, 0x4c578ba9, 0x78da9b04]⟩,
   ⟨[0xb3b707fa, 0xff9ed65e, 0xf5d28d33, 0xf8c8301f, 0xa65f5c0f, 0xb15d498f, 0xb0ef2b89, 0x6def256d], [0x52184ef6, 0xd40a6b2, 0x2bf06f5a, 0xc702ebe5, 0x4ba041aa, 0x13e50e18, 0x7ec4c784, 0x53552d88]⟩,
   ⟨[0xf28abb3a, 0x2cd09b19, 0x724edb9b, 0x4f5c040f, 0xe0dcbd16, 0xd6820590, 0x1b7155a3, 0x45d84de9], [0xa251b1ba, 0x995bdd01, 0x37caa4dc, 0x607f9517, 0xa15d9674, 0x747fea1c, 0x73e97c97, 0x646c1876]⟩],
  [⟨[0x6fac1486, 0x1951682b, 0x4a4d14c5, 0x8b578e1e, 0xb7384d42, 0x83fa101, 0xed1c8a87, 0x13380ce9], [0x732a493b, 0xc7052ed8, 0xb32e3d69, 0xd5fef40f, 0x88833566, 0xa64ace87, 0x4177dc00, 0x6e36cfdb]⟩,
   ⟨[0xe742c3b4, 0xaa14e281, 0xee5af40a, 0xb75e7b2a, 0x1616efa2, 0x3fc5ff0b, 0xad763298, 0x90259b0], [0x38753438, 0x4105b57e, 0xcf2d8926, 0x70ed1a00, 0x322f40bb, 0x78921395, 0x67a3ff56, 0x3aee8199]⟩,
   ⟨[0x11ea75fc, 0x88073d00, 0x6a4b4eb, 0xd23d2796, 0xd85d3a6b, 0x1fd22f9e, 0xafb43b70, 0x6b5ea051], [0xd99be576, 0x96c9c176, 0x4c47261e, 0x85ac2b6c, 0x99a9c378, 0x27263959, 0x8b5cabda, 0x6d36e9fe]⟩,
   ⟨[0xa58f614c, 0xc9fc7661, 0x2e45ae73, 0x82aa317d, 0xc8cb9cc7, 0xdcb1925f, 0x27813205, 0x1341c1aa], [0x6cd478ab, 0xdd06745b, 0x1e28f6a3, 0xc2534b2, 0x9d27fe63, 0xe2183345, 0x6466147, 0x7f1e2a33]⟩,
   ⟨[0x5aee2471, 0x378d727e, 0xd47739b6, 0xb718fc17, 0x4145e8ef, 0xda27cb9b, 0xef2ab20, 0x3f8ab1a3], [0xe16c0141, 0xa89add37, 0x59df1c95, 0x2127823b, 0xb7455cc2, 0x53f90b73, 0x1183fbe5, 0x7f960586]⟩,
   ⟨[0xe77235c3, 0x56d0475a, 0xb18ed61a, 0xed2907c5, 0x7d73f6f8, 0x2d02c4cb, 0xc42e7aed, 0x35ef69b4], [0x31b7324a, 0x53a6120a, 0x59f1a395, 0x982dd221, 0x835cfd94, 0x3eca86f, 0x73ca1bd5, 0x4cba837d]⟩,
   ⟨[0x41b17e6d, 0x64f66d39, 0xcb14f3b3, 0x3c869bf5, 0x28350efa, 0x1eba045a, 0xc7cdec47, 0x7acfb882], [0x8fb3097b, 0x7acfd28d, 0x62986426, 0xda397c31, 0x2a1a7a94, 0xd49f8421, 0xfab65156, 0x7b372e2d]⟩,
   ⟨[0x1d9db0f, 0x3adbdd07, 0x94ff0cfb, 0x617521e6, 0x3f5bd583, 0x5ba5905c, 0x78670cd1, 0x6f896033], [0xfb98ea11, 0xa59c447, 0x653edc59, 0x59b918cc, 0x9f72c01e, 0xbf4d2a, 0x47dee00f, 0x748455d1]⟩,
   ⟨[0x386e7491, 0xe371a7a8, 0x621a3484, 0xf71711cc, 0xe0015c3b, 0x1568256e, 0x7d3ffde9, 0x5acef7a6], [0xb08e4219, 0x2ed70e5, 0x832ac3aa, 0x7ece1726, 0x951d1ca2, 0xc3c0d32b, 0x38decc59, 0x4c991664]⟩,
   ⟨[0x96eb21a4, 0xb99df8ba, 0x2bbf8e6d, 0xb88d25f4, 0x686daa3c, 0x16b3e0b1, 0x70d47c57, 0x11314561], [0x3338342d, 0x8dcdc3d1, 0x88e028a7, 0xe6d39b01, 0x72855b5e, 0xb781f1ed, 0xcc192572, 0xe0d82f6]⟩,
   ⟨[0xcf1e20aa, 0xc86a8e5d, 0xf9ab96d5, 0x1a87aef3, 0xf3d19051, 0xa8941635, 0x654fff15, 0x67b1d0a2], [0x92862acd, 0x266fd5ed, 0xd11deeac, 0xb72587be, 0xd09320aa, 0x5cf0d2e2, 0x515e0277, 0x68456eba]⟩,
   ⟨[0x771f64ca, 0x86a5461c, 0x48ff8d7a, 0xb7a220b7, 0xd7a568d1, 0x9a0dd72a, 0xf644d858, 0x18f5e1dc], [0x3e00364f, 0xb7ae1bc2, 0xcee8d9f7, 0xd7ea31f3, 0xdcdb883d, 0xd18da30f, 0xcba00f48, 0x179cfca5]⟩,
   ⟨[0x39e7860c, 0x496f2c01, 0x27f15eaf, 0xacdf8b40, 0x687ac815, 0x8871966c, 0x8db8fdb5, 0x6228f1b5], [0xf30ecf2b, 0x8644656a, 0xae1deaff, 0x15576cc2, 0x697ab3fc, 0x93d86d56, 0x811e3ff2, 0x3e4a428e]⟩,
   ⟨[0x91b9f5df, 0xfb85de3d, 0xb20a9c71, 0xcdb595d4, 0xb44d671e, 0x55cb08f3, 0xfcd7d5ed, 0x780fc2e5], [0x7f939366, 0x815ab41f, 0xecd52b20, 0xa7597a02, 0x4648e3c5, 0x9be078f0, 0x17bd3dc2, 0x7a3e2179]⟩,
   ⟨[0x9d9e5e53, 0x22758c41, 0x9ef09fae, 0x44d675f4, 0x27159f97, 0x1ab7986d, 0xb6b9465b, 0x72b3f02b], [0xfe56f578, 0xa372fac7, 0xda534f4a, 0x33fa6479, 0xdf63bf2d, 0xb0003307, 0xb80d0f64, 0x34d40b4d]⟩,
   ⟨[0x3d2b9fc2, 0x8a8929dc, 0x55ee75e5, 0x7d12e86c, 0x92e1a870, 0xb3fe1ad3, 0x729cfe4c, 0x27148c94], [0x18ba868b, 0x6a8c3b52, 0x7f038a9c, 0xdd2006e4, 0xb7124908, 0x4606fa9e, 0xf4940cb1, 0x434a8c07]⟩],
  [⟨[0xf98b91ea, 0x15f36ebe, 0xc1ed17b1, 0x94d802de, 0x85d77f8, 0x3c45fa08, 0x2ff571a, 0xa30b3c3], [0x264c93d0, 0x70f5852d, 0x191aee57, 0x5e51bcab, 0xfad8e96e, 0xd5c14ae9, 0xd4bc414b, 0x73b00534]⟩,
   ⟨[0x12aff5e7, 0x21cf876b, 0xf75799a6, 0x3e9f664c, 0x9a0e73cd, 0xc23b7d19, 0x427eea36, 0x77aab691], [0x604ee854, 0x2e74f972, 0xf867c81a, 0x8712c7a0, 0x953a4c56, 0x6085980f, 0xf7707e1, 0x2db99707]⟩,
   ⟨[0x78bdb7a7, 0x5ecc087f, 0x4c693f2, 0x43cc156c, 0x39bd7f1, 0x965067cf, 0x6e3fae2f, 0x72140e56], [0xe019ded1, 0x26452e4d, 0x2edef154, 0x6f4c2349, 0x54dfc0f, 0xa7066d7f, 0x3381ab44, 0x544e6f6d]⟩,
   ⟨[0x9214c791, 0x9b6e9469, 0x86938bdc, 0xd74f9c55, 0xfc2928fd, 0xf1527f6, 0x63c3a053, 0x5b0fbf0f], [0xfc41ff10, 0xac1f442c, 0x787b4932, 0x34ef88ef, 0x316732ac, 0xf8120f08, 0xa655dc4a, 0x7bccf12c]⟩,
   ⟨[0xa6c7760e, 0x750df97f, 0x609bf215, 0xf1a0a827, 0x67fd04b4, 0x7348c1b4, 0x615c8145, 0x6a581016], [0x9a11aafc, 0x9dc01225, 0x3f2b0c8b, 0x24f65b05, 0xdcb1b2a4, 0xa27cb8bf, 0xe48c1a71, 0x3c44b811]⟩,
   ⟨[0xf780b295, 0xbc059af2, 0xb6b247d, 0xdf58928c, 0x1903f3d, 0x224d4c3c, 0x818ee0ac, 0x7152e120], [0x54bff1be, 0x6c8f4745, 0x431adef7, 0x98a6c7ec, 0x91b2cfb6, 0xdcb6bb75, 0x7e83a5bb, 0x145f6d39]⟩,
   ⟨[0x81d23bc1, 0x827c000c, 0x403956fc, 0x5cdc1135, 0x3c751158, 0xd967a5b1, 0x96201d7d, 0x52af85bc], [0x644558f7, 0x522bc492, 0xed7a060d, 0xf74a35af, 0x4dc4619e, 0x10e5f9fd, 0x324f60bb, 0x6071f1f]⟩,
   ⟨[0x65921c34, 0xc5ffd5ef, 0x302baa5d, 0x46ce1a69, 0x4e22ff1d, 0x89cc84ec, 0x68131754, 0x16a481ae], [0xb89039f5, 0x2a06a156, 0xb3a95ab9, 0x40b6401b, 0x313820c3, 0xffcc53eb, 0xea959f76, 0x256b00e7]⟩,
   ⟨[0x54fbdd74, 0xcce87fc9, 0xb23c6e1d, 0xec258542, 0x9e5e1928, 0x5be392b4, 0x47a8a759, 0x65af3110], [0x47dffd31, 0x943f7a25, 0x51e896fa, 0xdccda186, 0x933e747f, 0x71a93b1e, 0xdfb043ad, 0x44f5c468]⟩,
   ⟨[0x786fccba, 0xf6aec52c, 0x6d51fa78, 0x23d49dcf, 0x9b40d8e6, 0xf81463b, 0x708d3da2, 0x18b9d932], [0xf986dc6d, 0x796f94ed, 0xfc2622c3, 0x33b2ccc1, 0x9ccec606, 0x16790dfb, 0xcfd31481, 0x6f5d1452]⟩,
   ⟨[0x6c3a15d6, 0x91f15ddc, 0x4d360e75, 0x45d12f40, 0x1daffc9c, 0xf2e28ee8, 0x6cdf5566, 0x5cc6a056], [0x1779b9bf, 0x855166d2, 0xcf94d9fe, 0x92ba5ef4, 0x985bc1dd, 0x1266fb2a, 0xca3018ad, 0x4572ce8f]⟩,
   ⟨[0xbe4bb604, 0x8729a12d, 0x4e99e9ab, 0x6a29c849, 0x7a89894d, 0x54ae5011, 0xcdb0eebd, 0x5e66a255], [0xcbee153b, 0x6736ea, 0x225e7b86, 0x8a36cc2d, 0xec0598ec, 0xf731e430, 0x7fd9a11f, 0x49338e4d]⟩,
   ⟨[0xda6dabaa, 0xe038ce03, 0x7c1bce0c, 0x13a08dce, 0xda89efbf, 0x12d00dd0, 0x6fcf0510, 0x70a13fb9], [0x5cdb03e2, 0x16ed1c92, 0x8e9ee4b, 0xdf1ab61d, 0x3af3e3d, 0x48983da8, 0x429db770, 0x63cca113]⟩,
   ⟨[0xcfb805e5, 0x6d9ac1eb, 0x50fa37b8, 0x47c3fe69, 0x2c33d457, 0xd308ec73, 0xd4cca340, 0x3cb08e00], [0xbe862794, 0xc078dad0, 0xf4e10a57, 0x2d147f83, 0x3de1b3d5, 0xe91820ff, 0x6f30491b, 0x3d85dd72]⟩,
   ⟨[0xf5cbdd3a, 0xd486a022, 0xcac0b99e, 0x2663134a, 0x5f3abfca, 0x42de13f5, 0xb365b973, 0x4967a225], [0x10f1f997, 0x99c98a25, 0x7714fab2, 0x23f057c9, 0x1ba2338d, 0xce07ca6e, 0x69f65d7, 0x3ba69161]⟩,
   ⟨[0xc026fb0e, 0xccd8c86f, 0x50407a8c, 0xf49f1fea, 0x7f19a1db, 0x72fea37b, 0x3f457db7, 0x22a03e25], [0x71f736d2, 0x2d6c62b2, 0xa5acb4e5, 0xcc99f8e7, 0xde5f380, 0x8f7dbf2e, 0x352b4933, 0x24494786]⟩],
  [⟨[0xae2a5e8f, 0xf020e7a9, 0xd14c5f02, 0x5adc788b, 0x65c84db4, 0xc5e5afe4, 0x35c2633c, 0x392facc4], [0x42dee269, 0x47d50070, 0x6eb7849c, 0x76706ed7, 0x316548cb, 0x6bf56d56, 0xd37ff4df, 0x4a466066]⟩,
   ⟨[0xc30283ad, 0xc8ebbfb5, 0x3544e645, 0x31e9cf96, 0x88886b50, 0x90ea9a49, 0x21d3d5d, 0x5e4b8c88], [0xdfeb658, 0xa4db9225, 0x1910fdae, 0x8aa95db6, 0xde400eb9, 0x82e9a997, 0x96769a04, 0x238967e9]⟩,
   ⟨[0x89e2df0a, 0x1abb076a, 0x7065929, 0xda8b09b0, 0x63bd349b, 0x332be8a5, 0xa2d35385, 0xeb973ce], [0x9c7d375e, 0x67f7ae63, 0xe7ae90b1, 0xa235818d, 0x817493b0, 0x2b59c26e, 0x33c4acd6, 0x39dc1050]⟩,
   ⟨[0x7b7db3f5, 0x11801ace, 0x8cc97ca5, 0x79c214c3, 0xbf2674bf, 0xb4bfe1ab, 0x43252011, 0x598ea7dc], [0xb08f8ef5, 0x217ff6d3, 0x8b9226b7, 0x9797bbc9, 0x7b0edb09, 0xab8e98c9, 0x83a401f, 0x240ec22d]⟩,
   ⟨[0x459abc3d, 0x55a75bcf, 0x64ecc2dc, 0xb2f98598, 0x9ee84779, 0x271c47c3, 0xbf9bdbf2, 0x166e5d4], [0x4215b666, 0xd205380f, 0x64e9fe64, 0xf7041396, 0x2bb0da40, 0x4c737e94, 0xc8119691, 0x2e763521]⟩,
   ⟨[0xfd2f8593, 0x79550b60, 0xc17a56f, 0x47e00afd, 0xb44157cf, 0xd900a9d, 0xa81bed76, 0x16cf746], [0xac47a84b, 0xc21e861b, 0x1724bd47, 0xe14387a, 0x2077f7bc, 0xc209303e, 0xbad12f0b, 0x33b5eb59]⟩,
   ⟨[0x9850fc1f, 0x7152354f, 0x83637934, 0x1239576f, 0x82af46ba, 0xb00c4e4e, 0xec3feeff, 0x563d5062], [0x33d67b7f, 0xef25e373, 0x50d9845e, 0x3a80a50e, 0xa5787ef5, 0x1dced1e9, 0xa0f87c3c, 0x15723e9a]⟩,
   ⟨[0x2b4a156d, 0x21743511, 0xcd12bd2b, 0xb75c041c, 0x79f393a6, 0x6947368c, 0x76420e56, 0x32cde49e], [0x43d612ff, 0x67fba315, 0xe3b87bc2, 0x697f7fae, 0x7391129a, 0x980dafbc, 0x6f707469, 0x438b2858]⟩,
   ⟨[0x5e9d085f, 0xda8ad16d, 0x768fa87c, 0xe636f1af, 0xb85ff1f1, 0x8520756, 0x6abb31be, 0x1b818481], [0x2e686f1a, 0x25b3dcb9, 0x2b0cb829, 0xe1282134, 0x3b9b759c, 0x626232bc, 0x38c4338e, 0x797316bb]⟩,
   ⟨[0x4a62dcbd, 0xf8365b64, 0x6bf0efed, 0xc2cf51ba, 0xabf74764, 0x37e379ef, 0xa350d603, 0x5dc32071], [0x5b732100, 0x5465cc80, 0xb3bb5366, 0x3231b4e3, 0xd0d067ce, 0x23f5385e, 0x67d33451, 0x76cd7621]⟩,
   ⟨[0x55d857dd, 0xc6c93a05, 0x8f308f7f, 0xb4b6f176, 0xc0f13577, 0x2371cd88, 0x70807d9d, 0x1e507d6c], [0xc73e8e2f, 0x7a77cce1, 0xfccbdeeb, 0x1dd96274, 0x3f378b8, 0xa4dbea5d, 0x2a1c347f, 0x44b4df55]⟩,
   ⟨[0x8d067a47, 0x9853d282, 0x86813e74, 0xbf0adaf4, 0x39409037, 0xfde1f24d, 0x973b045d, 0xe629604], [0x3bb92fab, 0x9880a74b, 0xc6c4d6c6, 0xbc4e3405, 0x5184a2d6, 0x98c24318, 0xc210c183, 0x7d65412]⟩,
   ⟨[0x441a5fbc, 0x3938e528, 0xccc66b22, 0x2ccd837d, 0x5e606282, 0x75fade7, 0x4bb0e76a, 0x32181165], [0xfc929890, 0xe7240305, 0xe03aaa52, 0x1fa427c8, 0xbc7b9f8, 0xf23c879b, 0xd6bbc908, 0x699a1235]⟩,
   ⟨[0x14124b8a, 0x20c29781, 0x48000278, 0xc6464b3, 0xd644e10c, 0xf1939127, 0x4ec07ee3, 0x47a479e6], [0x77023389, 0xb6315768, 0x8bfdd90f, 0xc0fd319d, 0x6cb022d4, 0xebec200, 0x302f58ef, 0x6810df3d]⟩,
   ⟨[0xacb1c3f2, 0xcf97fa07, 0xa2c3f2f1, 0xacc60d84, 0x5deb73d4, 0x4ef3caac, 0xd5472c1d, 0x654d0d90], [0xe4729062, 0x5a39a718, 0x8324e0f2, 0x84b286b0, 0xd21e8457, 0xa07a01cb, 0xb094714e, 0xec091c7]⟩,
   ⟨[0x895736bd, 0x7ab81940, 0xe4679df5, 0x9ae791b7, 0xf064109b, 0x36163d81, 0xe956b07, 0x3ddee4a4], [0xfeaae47c, 0xe146e7ee, 0x6a8eec03, 0x81c0c2a7, 0xa8c315cb, 0x10bb8dd9, 0xd21b9ab0, 0x2cb423d8]⟩],
  [⟨[0x166a5b9a, 0x5b11d3c7, 0x8768861d, 0x973627bb, 0x5a3e442a, 0x82a5e2cd, 0xdde63678, 0x13f6c741], [0xd892738e, 0x8daa3c74, 0xa932376f, 0xa07d651, 0x6892504b, 0xe12612c5, 0xca3ff301, 0x619d2b1d]⟩,
   ⟨[0x1b07ceb7, 0x2b6d686f, 0x298d0996, 0x90c0260c, 0x102bc73c, 0x8caab926, 0xaeb3911c, 0x445a6487], [0x57f17290, 0x7ee1e547, 0x417711bf, 0xc055478b, 0x5cfa42c2, 0x29ef9fec, 0x2b8ea0d6, 0x5a022de4]⟩,
   ⟨[0xaeeb2675, 0x81a5ec18, 0xad1bba8a, 0xa867c5aa, 0x8db47ebc, 0xaecb3688, 0x26d1038f, 0x77ce00bc], [0x3e68504b, 0xadc635ef, 0xdae8af4f, 0xefc21de, 0xac70c4c9, 0xde57fd43, 0xe78ffc0d, 0x123360be]⟩,
   ⟨[0xd82b61db, 0xd608db32, 0x8e45c853, 0x5af2a90, 0x9d3b0032, 0xf1b8213e, 0xcad15361, 0x2312f8ab], [0xc29ee818, 0xdc8d8e32, 0xde5cd587, 0x7d7a475, 0xc6c38b8, 0x76610913, 0xd7984bd9, 0x131b6c6]⟩,
   ⟨[0xcf69c844, 0xc05cd4d0, 0x81a9b005, 0x747c092d, 0xd9e39f54, 0xd793551, 0x7ffef17c, 0x3bbb00da], [0x655ad7c1, 0x6cab83d9, 0x66a8f590, 0x601becd0, 0xae51811b, 0xfadb086d, 0xd69f734b, 0x7768a5d8]⟩,
   ⟨[0xf0e2385e, 0x3bb9b347, 0xf7d39f23, 0x376c8c48, 0xd82ec840, 0xe656c1a4, 0xfc2ac59a, 0x328b25c9], [0xa046bee6, 0xd02b2f39, 0x80066d6c, 0xdbab19a5, 0xe938b7f7, 0x6a2e8f67, 0xaa7f2661, 0x645a57a1]⟩,
   ⟨[0x9a006fae, 0x6227904d, 0xb598cb72, 0xa975fc4c, 0xa1120b82, 0x945bfc2f, 0x2ac15ce5, 0x437a8ab4], [0xf53317c, 0xa512a107, 0xff9bd7d6, 0x7b552554, 0x54155af9, 0xf81213e7, 0xfdce0842, 0x923f42c]⟩,
   ⟨[0x5216bb55, 0x13523916, 0x599ca117, 0xf27e4c7a, 0x7dd95be1, 0x464d040a, 0x3c417d05, 0x40897486], [0x7c88e5d7, 0xa3d16bf, 0xc13b286f, 0xb94c661, 0xe2214821, 0xf73c7126, 0xf2f6dafa, 0x4b3d5bf0]⟩,
   ⟨[0xf1a4332a, 0xcfabd8a2, 0xbaac9a51, 0x56db1546, 0x4416247, 0x8cc5204b, 0xf0583310, 0x75ec13bf], [0xd35b55d0, 0xd68896e, 0x67fc14d9, 0xe89274e2, 0xfc322878, 0x18d425c0, 0x916c714a, 0x69477dd7]⟩,
   ⟨[0x9bddf0f9, 0x427cbb6c, 0xdb9f52cb, 0xcf6941e2, 0x35e60dfa, 0xef144df6, 0xb61df45c, 0x27b5246e], [0xb8d3d1d9, 0xe124518, 0x8b313b95, 0xbb3ba134, 0xfa2b7a9, 0x50dcbdf, 0x1d0a99b5, 0x50dbcf6d]⟩,
   ⟨[0x3924a1e5, 0x8a8b22cb, 0x118f9d55, 0x86cb4c5a, 0x5b339c53, 0xe5330acc, 0x66a35a67, 0x6d5fddf9], [0x6f6438a5, 0xc9500719, 0x7e5394e, 0x9723f2ba, 0x866b45a8, 0xa9ce2117, 0x45ca2ca, 0x1b737d8d]⟩,
   ⟨[0x6ee00e30, 0x6093f5a5, 0x5de0a6fc, 0x5cab98d4, 0x65de754f, 0xadfb652c, 0x862efd1d, 0x679900d1], [0xafc5d235, 0x6e5c230f, 0x12cf6dd3, 0x3a1e5579, 0x3fb4fa0, 0x241c20fb, 0x20f6c013, 0x562ffae3]⟩,
   ⟨[0x397f25ec, 0x6efc732f, 0xbc1f03b8, 0x304d1f7d, 0x8890dade, 0xa2fa6001, 0x51a25539, 0x4f91f97c], [0x48f4ef02, 0xe75f9c50, 0x218aee9d, 0xcc53f460, 0x10d76649, 0xe7b40489, 0x42ecdba4, 0x148f90a2]⟩,
   ⟨[0x1f683ad6, 0xbf45023a, 0x95e868d1, 0x2ea5f70c, 0xa97f2de3, 0x47a19f33, 0x8a76ed9f, 0x3c8cca9e], [0xe1a268d0, 0x1562c6e, 0xba4ef01e, 0x9eb6ebac, 0x342410fb, 0x835e64d4, 0xfff4594d, 0x6f96b87]⟩,
   ⟨[0xd233612b, 0xe49a383a, 0xc9c14f64, 0x3ca5421f, 0xbb53df81, 0x25192e1b, 0xa94c046c, 0x3c1451fe], [0x423faa8, 0x72b270f8, 0x3763888a, 0xff63513d, 0xc1745190, 0xb22f2f20, 0x35dea32c, 0x2e005a7a]⟩,
   ⟨[0x6305b2eb, 0x6b5a4e7a, 0x9ccd05d2, 0xf017bca1, 0xd19ad8cb, 0xb37027c9, 0xcbb36a6, 0x2cfcb470], [0x663f3485, 0x17f4fe51, 0xdc3467b, 0x7dc20a17, 0x4af63cbd, 0x6b56ba3f, 0xd5d64af, 0x4e7cf289]⟩],
  [⟨[0x7f59d2e9, 0xe2c5cd1f, 0x9d7fbe1e, 0x6b9aceb7, 0xa20225b0, 0x84f0441d, 0x8b369fbc, 0x15875cda], [0x659e294, 0xed133277, 0x7ae02043, 0x7faa913e, 0x9dcede14, 0xca0e58da, 0xcde68547, 0x5f6a70fd]⟩,
   ⟨[0xe7282711, 0x524b790d, 0xbca05694, 0x4b4f6246, 0x949af774, 0x85169ecb, 0xcc743068, 0x5b168842], [0x31fb3ba3, 0xb8d0e9f2, 0x62d471c7, 0x56dd4bc3, 0xe2a34f75, 0xb14d689c, 0x2e8d2d2, 0x7f4e1717]⟩,
   ⟨[0xb17090b9, 0x8ee3491a, 0x6b7edaf4, 0x67c07116, 0x4d0e6cce, 0x6876e4ce, 0xbc5a86be, 0x6d2fbb64], [0x70fa8c3, 0x431c67a, 0xf5d65f4, 0x91eff9be, 0xe07088df, 0x332985e2, 0x676eada8, 0x6d2583]⟩,
   ⟨[0xaa747d6, 0xa1fbcc37, 0xb0dfdf3c, 0xadea4a90, 0x401ed81b, 0x650162c7, 0xa8b15e22, 0xfbc4841], [0xbf98cdac, 0x1044b4e8, 0xecd1c668, 0x37071115, 0x233c220c, 0x29b93c17, 0xe69bc0c0, 0x4bebc3cc]⟩,
   ⟨[0x46bf7e51, 0xd1a16e37, 0xf7a7370c, 0x889c7782, 0x3ccb474d, 0xc73f396e, 0xb9d67a2e, 0x1c508f18], [0x6b03b7e7, 0x3f17e967, 0xf857bb26, 0x3928f1d8, 0xc0ea8620, 0x3086fb2e, 0x1be7c3e4, 0x15dc32c2]⟩,
   ⟨[0x11f4d949, 0xf48d4c32, 0xb0357c05, 0xe14a4ae3, 0x151d91ae, 0x77a1121f, 0xe8c6869d, 0x33f85c2f], [0x364b77b0, 0x8ea3bb4c, 0x9bd43e50, 0x1f155b91, 0x54748e7d, 0xa6c28730, 0xe7ddc539, 0x5aa34dda]⟩,
   ⟨[0xa6cf8a82, 0xf0f80dda, 0x91663b5, 0x87de6d6c, 0x2fe5519, 0x94798734, 0x96722130, 0x109d411f], [0xe661041f, 0xbc47ca73, 0x65741541, 0x71d6059, 0x7e08735, 0x7cd4df66, 0xe68fc807, 0x175e1f77]⟩,
   ⟨[0xda58865b, 0xb88bdab8, 0x20ed2b89, 0x14ad9112, 0x39bf0a3, 0x2b21aedf, 0x9d4b77e9, 0x78971777], [0xd6612ef3, 0x133da2ac, 0x12ad1785, 0x6260fcf5, 0x9df08843, 0xdba784da, 0x4449fbd1, 0x1a30c4cf]⟩,
   ⟨[0x4ef7aca2, 0xb6fece87, 0x13f7c58c, 0x9ce7b61a, 0xf8719a60, 0x6b0223c9, 0xa3b3b088, 0x21199aa5], [0x6938bb02, 0x4a717196, 0xe7abc263, 0x2e9a17c9, 0x4bab12b7, 0x83f79623, 0x49d7cfbd, 0x15c0c4af]⟩,
   ⟨[0x56d2957f, 0x99b34139, 0x7218bb6, 0xa51b8dfd, 0xfc91d7c9, 0x47ca4323, 0x3dcfd5f0, 0x44b01e75], [0x8ce894f3, 0x29f9d18e, 0x95227c6f, 0x22bcc540, 0x3fc75409, 0x815cd936, 0xd8989472, 0xd58b325]⟩,
   ⟨[0xb6c80208, 0x8b4c6980, 0x8fb77ccd, 0xa5d97497, 0x9477132f, 0x1b896571, 0x3ae45f53, 0x348abc21], [0x14bcdb96, 0xe438c1c3, 0x8007c1bf, 0x63150cf9, 0x8508b903, 0xdb861a33, 0x7b04ecd6, 0x421dfb01]⟩,
   ⟨[0x19430e7b, 0xf2fce58b, 0xd0f8ecb7, 0x851a5f03, 0xa5a1833, 0xe756c167, 0x227f866c, 0x25a51405], [0x3c6ee5f3, 0x40f34cb0, 0xf244b5cf, 0xf4010401, 0x1349bcf, 0xe21bded, 0x4547f42, 0x1b129d82]⟩,
   ⟨[0x927d153, 0x802ec480, 0x72541520, 0xf75e4fe, 0x26c4613, 0xa4a1557a, 0x7d92bc18, 0x25e8dafb], [0x12f15f05, 0x1d87a143, 0x7b6b4240, 0x79390e3c, 0x492e6273, 0xfc199d76, 0x7eb090c0, 0x53f1c4]⟩,
   ⟨[0xacee6dfc, 0xe790f1ca, 0xdfea04ff, 0xc8fb4626, 0x627d88d7, 0xbf03627f, 0x3d81a75a, 0x1b369884], [0x917fa19d, 0x83405dda, 0x8c7ddcd2, 0xffb23ff9, 0x40f10b48, 0x644f54c7, 0x17ff713a, 0x4636fadf]⟩,
   ⟨[0x27f417e4, 0xda62ecc2, 0xfd8662be, 0xc0dbe48f, 0x1011e73c, 0x729ee4aa, 0x3e11c84b, 0x4bae5d3c], [0x6cef6cda, 0x854dfff8, 0xcb7131ea, 0x7939228c, 0xd3ebc607, 0x58b3744a, 0x2049e239, 0x6eb9248f]⟩,
   ⟨[0xed0d4e57, 0x265cae9, 0x8aa65aef, 0x92166d02, 0x198345d6, 0x2e337cda, 0xabe1ad7b, 0x6775330c], [0xbf6fbc7d, 0xa9a828a8, 0xcbfea393, 0x33a56f8d, 0xd811ec51, 0x2db72f77, 0x8327c78e, 0x3ddfcd26]⟩],
  [⟨[0xb46aa2c4, 0x7cf8a521, 0xacf0d567, 0xe3b20937, 0xa440648e, 0xd47d8d1b, 0x1e9791a1, 0x674e7920], [0x18366462, 0x27b714eb, 0x8476f588, 0x1526e558, 0x6c240d70, 0x72c8d374, 0x805c1265, 0x66bbafb]⟩,
   ⟨[0x457034e1, 0x15f1cff5, 0xdd819fa7, 0xcf7c6550, 0x77ac7ad6, 0x57c2cd53, 0xafed669d, 0x7db2a8be], [0xd4697340, 0x2dafd95f, 0x15a6b6e7, 0x382ff892, 0xbf4a6b1b, 0x36fc753, 0xe4012711, 0x3e7ac46d]⟩,
   ⟨[0x5752a34d, 0xba5ecded, 0x6baa08dd, 0xb08749d4, 0x4a4a47a8, 0x8a2b9897, 0xe42dce02, 0x7230966f], [0x58654ff5, 0xa6ff614a, 0xab3c2a7e, 0x7f3531d1, 0xd0ed417, 0x282a2f0, 0xea9755a3, 0x2dc7b872]⟩,
   ⟨[0x2392536a, 0x7678d765, 0x574c657d, 0xc2025f1, 0x795413dc, 0x1701c80, 0x5396279e, 0x63f0d496], [0xfa32ea64, 0xb0f9968a, 0x5bb393de, 0x81265d15, 0xbcd8c10, 0xc05ecc6d, 0x2824457e, 0x4f3769f9]⟩,
   ⟨[0xf13db92e, 0x9aa58686, 0xed2e1b18, 0x1155cdf4, 0x9823f5a, 0xa06e9194, 0x4257ab0e, 0x7f1bbe73], [0xaba6fcd1, 0x2dfb6472, 0xd73d850e, 0x4be6bca, 0x297d312b, 0x72aaec34, 0x7509d9f5, 0x31f4c02c]⟩,
   ⟨[0x7ca72ad5, 0xaa9ba000, 0x7fbcb4d6, 0x21ee2945, 0x1cf8580a, 0xe210aab, 0xfa8de10, 0x600479fe], [0x54322f70, 0x246fd265, 0x60df1893, 0xc60be9bb, 0x5137e38, 0x4d4f99d, 0x6164c176, 0x6acb9e01]⟩,
   ⟨[0xc1db7b6c, 0x126f2c7e, 0xcf4dd3c0, 0x4c3b30b5, 0xf782a489, 0x827d57a2, 0xe52621f0, 0x41b897de], [0xdda0a3cd, 0xed31c55a, 0xa11ad179, 0x21c91bb2, 0x43fd6e23, 0x60e606b8, 0x51ed7fa6, 0x31b8138d]⟩,
   ⟨[0xe72e4bc5, 0x1387b313, 0x82ebfc72, 0xdcccb09c, 0xaa4432d6, 0xf0b01202, 0x7c52b69d, 0x632599c4], [0xbce9a04c, 0x3922d0c0, 0xb53f4268, 0xc2397d88, 0x669858, 0x50ae5ed9, 0x16c7696b, 0x1b2bd4c2]⟩,
   ⟨[0x2bf7df06, 0x6fae1b08, 0x5210db3b, 0x870b3fe8, 0x9bdc0b91, 0x680be422, 0xbcc970ad, 0x56ba83c6], [0x859d6c78, 0x1ae91bac, 0x2895a1a6, 0xc5bdd5fb, 0x550610f5, 0xa169e73c, 0xcc7d3ea, 0x1b46767]⟩,
   ⟨[0xec5ece2, 0x1e147a51, 0xd0e2c46c, 0x9b612a1f, 0x5e293783, 0x664fdd55, 0x67dc4dbc, 0x52070e15], [0x4a4903fb, 0x449b53e5, 0xa8d30103, 0x79b53583, 0xaf7cc314, 0x616c97f3, 0x2849862c, 0x6beb304c]⟩,
   ⟨[0x19f0313, 0xb9c636d6, 0xd3e0188d, 0xb08e7cb, 0xd704de15, 0xeaeb1715, 0x837e7543, 0x4990282c], [0xfbd3a061, 0xcbb0bd49, 0x1da124ae, 0x3454a8ac, 0x37d64eab, 0xd524a02, 0xb3e4ade, 0x76680749]⟩,
   ⟨[0x95b04835, 0xc293e011, 0x23d0c885, 0x76d304ba, 0xd6552d80, 0x36a63627, 0xc504ccab, 0x3b4fa680], [0xe1fc08df, 0xf25b3a04, 0x62d080f8, 0x786380e5, 0xdac0d110, 0xa731427, 0xd628429a, 0x1d65288f]⟩,
   ⟨[0xdc94453e, 0x3ce5e929, 0xb6073324, 0xec7cf988, 0xdcb35234, 0x23361e7, 0xf5e89b7c, 0x3af20624], [0xa5b2b103, 0x860f188e, 0xcb6d112f, 0x5eac84ce, 0x914c9ffd, 0x63b200c3, 0x55a1fdcb, 0x327870a0]⟩,
   ⟨[0x155280ed, 0x4f94633c, 0x3654b8aa, 0xf98321d5, 0x489ae89a, 0x9c057a23, 0xd59ca3b5, 0x1124a1fb], [0x1f64afd7, 0x2f4ce052, 0x7c789152, 0x841ee441, 0x59a98374, 0x93531ed4, 0x36bb8f07, 0x69a4f48c]⟩,
   ⟨[0x5fd512a7, 0xd8ffd243, 0x9bea1738, 0xf48c96f1, 0xffb4553, 0xf70e1f6a, 0x5ff91d21, 0x29db63b1], [0x77bf7279, 0xc1355c23, 0xa2fc904d, 0xd3946ee9, 0xe7b7a9f4, 0x7223881, 0x56e08ed6, 0x212d8967]⟩,
   ⟨[0x45503451, 0x32b8c22a, 0xe6ab7b3d, 0x9e4fdaf1, 0x4a31294, 0x7a300e3d, 0x5fe2aeb, 0xf529dfd], [0x9951b6fb, 0x7effea9e, 0x336b9a2b, 0x18c60266, 0x6c8d0eec, 0xb78a5ee1, 0x46ed0b23, 0x68c17fe4]⟩],
  [⟨[0x96b3222e, 0xf707fad5, 0x223f804, 0xd6af6161, 0x4f43a0e9, 0x13ffdc74, 0x3347f487, 0x6a3b70e9], [0x6a4af4f5, 0xbddf02a4, 0xe4c69950, 0x61b451e1, 0xf9e3bb99, 0xff854590, 0x7cd54c54, 0x46eb1f69]⟩,
   ⟨[0x8e6848d3, 0x70e643b6, 0x848c2587, 0xc58b8519, 0xedf4a38e, 0x2f195c54, 0x3d2a52e8, 0x206e6a32], [0x417595bf, 0x234845b5, 0xff5ae3cb, 0x90354373, 0x89c0e555, 0x13be31ce, 0xcc67e26f, 0x2d18aa43]⟩,
   ⟨[0xf041bd17, 0xc74ee8c4, 0xc2b3cc64, 0x655cf527, 0x160ff053, 0x6735cf0a, 0x4218a0d, 0x35dab9eb], [0xcbc34e46, 0x32bb2e9a, 0x7d190342, 0xf780ceaf, 0x9f0da1a4, 0x161c0c1a, 0xe7642fd6, 0x7b198c9e]⟩,
   ⟨[0x122fd0b4, 0x936c763e, 0xa7e0c435, 0xa3819ed9, 0xcaae6d7b, 0x86228b04, 0x7a3c65b4, 0x2e116018], [0xd4eb0345, 0xf55bb1f3, 0x630b569, 0x858a0bf4, 0xcb78a626, 0x8cc22657, 0xb45e3005, 0x7cd93bde]⟩,
   ⟨[0x98e517ab, 0xcaa1f459, 0xb34a6f5c, 0x36e60281, 0xb46f47f, 0x877a49f3, 0x9e7be761, 0x179824b], [0xd455d9c0, 0x6830a2b2, 0x7ba31962, 0xb734ba0a, 0x65c3b51, 0x344665a4, 0x562e7f1d, 0xb1d2210]⟩,
   ⟨[0xb2e22e8, 0x289bafca, 0x83390107, 0x38929a0, 0x683e782, 0x968a014d, 0x53d34463, 0x5a1ad5c8], [0x9527b2ca, 0xa2613334, 0x310b745f, 0xe8471271, 0x31387f59, 0x49c81a26, 0x343c691, 0x1b955af7]⟩,
   ⟨[0xa4a9fca4, 0x69328ad, 0x624fcb94, 0x14ef09a7, 0xe3e0cecd, 0x21c76f0d, 0x6c1bce0f, 0x5f470b86], [0xb15bc8b4, 0x79319a3f, 0xdb06afa1, 0xb1407cb1, 0x911116e0, 0xd69e9e09, 0x756579e, 0x6e77524e]⟩,
   ⟨[0xe2d851d5, 0xd3ec5ebc, 0x3b63143, 0xc888bc23, 0xdb0c357f, 0x5f3de41e, 0xc3d47d37, 0x646ffbd3], [0x692639b, 0xe53f8beb, 0xd4fbc3d4, 0x7e194e37, 0x452b2a2e, 0xe1988a22, 0xb013f9e1, 0x5d359a15]⟩,
   ⟨[0xb2a6627d, 0xa48160a7, 0x3ce8789e, 0x5efdc848, 0xb1cd14ee, 0x264cbff1, 0x44d84222, 0x288823d4], [0x3a6db1f8, 0x2f091b23, 0xcea89b44, 0xbfd737b5, 0x17f5e969, 0x682ab86c, 0xabb0fa87, 0x7653005c]⟩,
   ⟨[0xd4b8a43a, 0x619c2629, 0xb6daf943, 0xbfdaf433, 0x6d640db8, 0xdc7aa1ee, 0x3b08d55c, 0x35adeea8], [0xd7af5382, 0x30935454, 0x3d68a24a, 0x1f9c51a1, 0x78bdbea9, 0xdbd13cfc, 0x31210a3f, 0x3b6d99]⟩,
   ⟨[0x9c2b515d, 0xd4547a32, 0xfecdaaa9, 0x4af29aa8, 0xe401d5ad, 0x85c80ecd, 0x8aa315a1, 0x2830332d], [0x71dce198, 0x56758823, 0x6acbdee3, 0x55ac9d10, 0x575cf4bb, 0xf6d468cf, 0x576b5c4a, 0x46e4fa98]⟩,
   ⟨[0x20d859ef, 0xad20f820, 0x2a5462b0, 0x38091588, 0x2135da7d, 0x35f45c9f, 0xf7f20dbd, 0x6b426f91], [0xf96e77d2, 0x4a0d8cbe, 0xcc51d3f4, 0x8fc36f5b, 0xbe16a0a8, 0x7a1870dd, 0x114db780, 0x29c3e2b3]⟩,
   ⟨[0x21779e6e, 0xff692a4c, 0xa6026ec1, 0x698231ab, 0xef03e21b, 0xdab0d835, 0xc846d56f, 0x770bffac], [0x3b8b0747, 0xcd28722d, 0x32ae95e5, 0x3defe040, 0xf9857d6, 0x6f5d816a, 0xfc630f5e, 0x2e483fed]⟩,
   ⟨[0x967c7140, 0xdbf82ec4, 0xd20a2a5, 0x6265cad1, 0x5862defe, 0x1509652b, 0x94a284e5, 0x699dd939], [0xb2cc732, 0xc0116646, 0x94c3ef86, 0x583fe012, 0xcd353430, 0xcd5daea8, 0xc7ada62b, 0x2b39a746]⟩,
   ⟨[0xe4257bbc, 0xf449b989, 0xa90dcce6, 0x95ba21ba, 0x93ca4acd, 0xdd53ad5c, 0xbb4213b, 0x7fcf2738], [0xc2e7e54e, 0xe57c1c0, 0xa1a0e975, 0xd1769dae, 0xc3b6e13b, 0x68f62c4e, 0x781242d8, 0x75152f9a]⟩,
   ⟨[0x24b8b820, 0x4d582768, 0x5bbd9f84, 0x36e37ac4, 0xda076f12, 0x1f34414a, 0x3e0333c6, 0x8a77c28], [0xd9193382, 0xbb1f017d, 0x83a5612d, 0x56e9aa24, 0xd0b4554f, 0x6959b02b, 0xe4559b52, 0x2479bc56]⟩],
  [⟨[0xf570a8e, 0x96d631c6, 0xd714b807, 0xe3f566a3, 0xef7e1550, 0x564dd512, 0x79fa2f58, 0x1c5cf24a], [0x897958db, 0x973ba599, 0x11a9cbb1, 0x93951d17, 0xa37a969a, 0x86ba17f6, 0xa069b195, 0x4807cac7]⟩,
   ⟨[0x6665b35e, 0xb64ac0d4, 0x7ef72c68, 0xba9cd394, 0x9c4cbc44, 0x838807b2, 0x82770197, 0x2675d268], [0x17087fa9, 0xbfc2f137, 0xe7b79b31, 0x811e644b, 0xc963a061, 0x597ce23f, 0x2ea0deb0, 0x40bc32e4]⟩,
   ⟨[0x27c85959, 0xc0aefb50, 0x58e0fdd, 0x76d1087e, 0x7e51a6f8, 0x6ada5aaf, 0x54a058d, 0x424b16e0], [0x63af9766, 0x9a2c20a9, 0x3cf18dab, 0x4c1cb532, 0x6c5d6a00, 0x599cd929, 0x8aa311bf, 0x57c39bae]⟩,
   ⟨[0xcd987f02, 0x3fdf5b46, 0x353175c4, 0x57755078, 0xcd578394, 0x80223ec0, 0xaeb7d278, 0x4bba6ac], [0x8688bfb2, 0xd27fd2be, 0xc27a62e5, 0xb2f80278, 0x339429d8, 0x8ba6fb07, 0x3ab70aa0, 0x57737ff6]⟩,
   ⟨[0x8eaeb3c9, 0x140e47f, 0x735ac8ea, 0xb91c9798, 0x83d4efaa, 0x325e0312, 0xd9c5888e, 0x1e7da3be], [0xf7f1eb13, 0xa210cda6, 0x936ea9e9, 0xedc1f6b3, 0x1b097f65, 0x46e831c4, 0x1939a0ae, 0x857601]⟩,
   ⟨[0x1f68bb40, 0x7c26f711, 0x39ddbe6d, 0xea69c845, 0xe5316f22, 0x590bf426, 0xcc2df9c9, 0x40cdc921], [0xf3f991c6, 0x28a32dde, 0x5356ca78, 0xd75b59e6, 0xd1f5f318, 0xb5dd3861, 0xe7929834, 0x9eb1a2d]⟩,
   ⟨[0xdbc0370d, 0x701f9a2d, 0x2870b59d, 0x559d0faf, 0x55367b5d, 0xe89e5df0, 0x74005a58, 0x22bbd4fc], [0x99cdc76b, 0x7aced1e4, 0xe3c219d3, 0xd41c827c, 0x8221d91f, 0x5af3f2ae, 0xe5b6bc98, 0x6d62c990]⟩,
   ⟨[0x7ffc9d0f, 0x23b2a0bf, 0x974ca299, 0xed98f71d, 0x151d559b, 0x10f8c07a, 0x8e949c62, 0x40e46fc3], [0xbbe55338, 0xcf53e34, 0x115520d4, 0xf2d6cf26, 0x590b4e23, 0x915ff09a, 0xbedc75f2, 0x72e4233]⟩,
   ⟨[0x997e9bfa, 0xb67a6b60, 0x973bc3e7, 0xe7686ac9, 0xb228320, 0x9525b449, 0x7ade8f19, 0x6c727583], [0x62ff3d5, 0x3d064298, 0x7e22768, 0x5483826c, 0x1f7a64a4, 0xf4ade921, 0xbd92eb25, 0x70bddcf7]⟩,
   ⟨[0x5d8a9e36, 0xa8db3611, 0xfa81065a, 0xaa6a5f33, 0x366dda90, 0x8ec120a3, 0xd8a15cf7, 0x2aa0ab25], [0xa0dffb9c, 0x5e11e169, 0x118408a7, 0x8c7572e9, 0x35833adf, 0x4eefd13e, 0xfc2c1811, 0x2c6732e8]⟩,
   ⟨[0xb1537df6, 0x15d063f9, 0x414fcfd, 0x864176b3, 0x8ff9e32e, 0x9c0a194c, 0xdde1540b, 0x4db14c6f], [0x31f6493f, 0xfaa4aed4, 0xd3c41a46, 0x2c479f1d, 0x8e5e85a2, 0xc3119667, 0x84e9a76c, 0x7e567c80]⟩,
   ⟨[0x689a6b95, 0xb9e2c92a, 0x3b635b01, 0xcceac383, 0x34aab952, 0x4fea465, 0x63b5cf63, 0x772e5027], [0x25830581, 0xcb94f5d2, 0xc77fb7de, 0x791004af, 0x5140e4ae, 0x53273c33, 0xa524419f, 0xc2d329e]⟩,
   ⟨[0xb307b0e4, 0xb7ceda36, 0xf8f9667, 0x12df7fd0, 0xbf62bd94, 0x74274002, 0xc436c319, 0x6765c73d], [0xf6eec946, 0x79b64ce5, 0xdab258b6, 0x3b1b4b43, 0xee1f8b84, 0x377819a3, 0x76d0eb1f, 0x1f45f1d6]⟩,
   ⟨[0x58c953ad, 0xcc5bf9b3, 0x7bad1d2c, 0x8303250f, 0xf164972b, 0xbca7bc36, 0xb1dfda64, 0x2cacf8a9], [0xd4e2a06f, 0xb03a59b9, 0x1b7fb8fd, 0xfed68e68, 0x7e747ae6, 0x8f75a52, 0x37a4420b, 0x3299ea6b]⟩,
   ⟨[0x932e5ba6, 0x49a00be6, 0x56114c4b, 0x49212505, 0x376183c7, 0x786b7d31, 0xdd8a5eaf, 0x1f9e229], [0x53094ad4, 0xe9b8e990, 0xbfaedfa8, 0x2eda305c, 0x7f9e3bc8, 0x34443726, 0x6b55b3c3, 0x1729519c]⟩,
   ⟨[0x50a597d6, 0xea5a68c0, 0xf1e86d1b, 0xa65147d4, 0x8b47cdeb, 0x554fa36b, 0x9f24ffed, 0x7f38364b], [0x1d2a8e2b, 0x657c7e05, 0xe3f64d62, 0x8270f1a7, 0x953af5a2, 0xfd258b59, 0x43510aa3, 0x6de01141]⟩],
  [⟨[0xd7a5cbe, 0x48390428, 0xde441e5e, 0xd37e8c1f, 0xde31c8c, 0x908c88b8, 0xacd87ce, 0x7c0e24bb], [0x25eccce8, 0x4a781177, 0xcbda746f, 0xc06c2f7a, 0xab565dd4, 0xdb9e9a08, 0xbe776f5b, 0x1e9b44c0]⟩,
   ⟨[0x85b54abc, 0x7cfd4e50, 0xe7a44f8b, 0x41a4a4dc, 0xa4422576, 0x751c5052, 0xd56b6cb1, 0x534fe0b2], [0xd5d767d0, 0x22daa5cd, 0xaf8e22c, 0x9c1999ab, 0x99259068, 0xc70c0932, 0xfd0839f0, 0x459d212e]⟩,
   ⟨[0xfd32d79b, 0xa207e7de, 0x410b479f, 0xa7b54991, 0xd68e5cdc, 0x806912b6, 0x92ab8b64, 0x1cb7b68c], [0xdf98339f, 0x3db85378, 0x83ea7a18, 0xa24101dc, 0xe25522c5, 0x8892367c, 0x7753a2c3, 0x491a8bb3]⟩,
   ⟨[0x8c7875a7, 0x571c547e, 0xe9747c13, 0x7e5f23e4, 0x1058548d, 0xf3bbb2, 0xe2397102, 0x7081f172], [0x6b573034, 0xb4351b8a, 0xc1a094f0, 0xb35a4f44, 0xae951e96, 0xe2c1daed, 0xb9daa081, 0x5cf2a742]⟩,
   ⟨[0x9828ed9f, 0xb4f0d3f0, 0xa9251386, 0x6db312fb, 0x537203f2, 0xc9a4583f, 0x9ce76d40, 0x5e099639], [0xc9f8cea8, 0x3381b894, 0x626e07e8, 0x8242daf8, 0x6077dfd9, 0x64a0b68c, 0x563cf051, 0x3cc462c0]⟩,
   ⟨[0x87af4a45, 0x8937364c, 0x2de0fd60, 0x8c4acbfa, 0x472a5d8a, 0xf10aed11, 0x5380c2e6, 0x3f5674b5], [0x2bf8a452, 0x8f4fd0f5, 0xc7390418, 0xb436e388, 0xe6ee9406, 0xafab7b7c, 0x951739ba, 0x4f623177]⟩,
   ⟨[0xa9b50f2a, 0x90b0ed35, 0xac6cf217, 0x46dc3f91, 0x2c7b119c, 0x2f142031, 0x7d79225, 0x55a93cbc], [0xb304a642, 0x45e0dd7d, 0xd572d446, 0xb743dfcd, 0xac74b368, 0x867b02eb, 0x169b94b0, 0x67b2b86c]⟩,
   ⟨[0x483cfedb, 0x18396da7, 0x8a3a07c2, 0x6c6e0370, 0xab554998, 0xf32a1afe, 0x87d1c136, 0x408c9119], [0x4bbe0b78, 0x755f6325, 0xd1178550, 0xdc4a7319, 0xb3b9e459, 0x44b49813, 0x4c3d3620, 0x294b9a9]⟩,
   ⟨[0x67fa6ff, 0x6480f6fe, 0xf307a52e, 0x67891400, 0x7f865da8, 0x9f846ef8, 0xae02f671, 0x318dac55], [0xe288a317, 0x91119652, 0x38c61b8, 0x4d7cf2b8, 0x5154c1a8, 0x98f80dd, 0xd239a2d4, 0x10c04f87]⟩,
   ⟨[0x5ca6f183, 0x13460926, 0xd52001ed, 0x5e97ad18, 0xe14843df, 0x7dcd2477, 0x98a30426, 0x27dab276], [0xe120d80c, 0x7939cae3, 0x51e5b81a, 0xc9f46466, 0xe2e49d52, 0xed620322, 0xfa172bbb, 0x3c0f5a2e]⟩,
   ⟨[0x5db1196b, 0xbffe8742, 0x49b7214e, 0xcd45f8ed, 0xc35f5c33, 0x923aba47, 0x83f3ee48, 0x16ed1f10], [0x99274930, 0x42e6df0, 0xc5f8ea16, 0xe8ae1dcf, 0xf02ea2b2, 0x4462cb, 0xd284b04e, 0x427f9381]⟩,
   ⟨[0x75efacc5, 0x4cd481f8, 0x21c83368, 0xd98c3fd4, 0x3894ce88, 0x4335e7c8, 0x955a298c, 0x18321f87], [0xd1716e18, 0x73dd00a, 0xfe0bfe61, 0x66d82a5f, 0x2310c532, 0x7d869e20, 0x19bf4704, 0x29a376fb]⟩,
   ⟨[0xc149b5b0, 0xa1b12b35, 0x1e828959, 0x3411b231, 0x560d99fb, 0x56417519, 0xebb52124, 0x4e0eb143], [0x6aef3801, 0x7b594b5e, 0x9ecb536e, 0xaee12e, 0x56e23145, 0x6bf0fb29, 0x61ae8e98, 0x2b2d83b9]⟩,
   ⟨[0x6ac27f2d, 0x9cb3e2e8, 0x5a6280aa, 0x82baca96, 0x2c6b7c8f, 0xcbc6c01b, 0xd0c01abd, 0x390511bc], [0x49551c0d, 0xb322d972, 0x7b6489c8, 0x7905e82e, 0x40eec20d, 0x4dd0ce8b, 0x2409298a, 0x5c0b3ee7]⟩,
   ⟨[0xb635fb99, 0x4418d685, 0x3ace8b39, 0x652ea608, 0x46fc4047, 0xe586fbdc, 0xd8cc13d8, 0x3c832d34], [0xf7aa54a1, 0x14cc9f23, 0x7153b9f, 0x80d094e6, 0x6a2eed8e, 0x776e540, 0x77249085, 0x3cc3bfc]⟩,
   ⟨[0x1308c1a8, 0x5f8f281f, 0xd1afc4b7, 0x31c8e737, 0x41ae8ef2, 0x67785298, 0xfd028a4b, 0x17716086], [0xf922e100, 0x1a2083e0, 0xd53fe691, 0xd67ec9d1, 0xecca8deb, 0x2df8b6ed, 0xbccc999e, 0x3b595ee4]⟩],
  [⟨[0x5a4b8c04, 0x11f03f89, 0x7dae8e6b, 0x254c3648, 0x637cdb83, 0xab6eaaf1, 0xfdded8f6, 0x41f52243], [0xbbdf3270, 0x487078e1, 0x339cea28, 0x98853b49, 0xab3ede57, 0x8af0522b, 0x85eb4cc0, 0x734d711f]⟩,
   ⟨[0xf86ba644, 0xfd1f46ad, 0xa3299855, 0xa5332b97, 0xd9493634, 0x61be90db, 0xc2705911, 0x308f09b1], [0xb7918a5, 0xd59f1b1a, 0xcf6399e6, 0x9cf333d0, 0xfbb26b6b, 0xd09c63cd, 0xa6536647, 0x76c27913]⟩,
   ⟨[0xaaab555c, 0x3df1811f, 0x886c828b, 0x60853351, 0xf1e87f41, 0xf6ca7707, 0x7d7082e6, 0x5b4f6edf], [0x3f672de7, 0xade518e0, 0x22541b2, 0xed0b84, 0x618e8969, 0x4fe5dd6, 0xdb9cca4d, 0x2f5f5c65]⟩,
   ⟨[0x96bdae2c, 0xb69b45, 0x770604c4, 0x6db22cf, 0x856585c3, 0xc2eb7f8f, 0x413c614, 0x6e322539], [0x70a46872, 0x22c09ea8, 0x1ff23734, 0x143e73bc, 0x575c20b4, 0xcac5e2dd, 0x3febe787, 0x225e5390]⟩,
   ⟨[0xbe9c512d, 0x594fea4e, 0x92cb73ae, 0x58507092, 0xb0ce2096, 0xfd8efc7d, 0xe031d6ab, 0x3b58c199], [0x479f23e4, 0x55da1cbd, 0xa6db6137, 0x60c6bb5, 0x6864488e, 0xd8319cf8, 0x21b02eda, 0x6c15a31b]⟩,
   ⟨[0x8ca7084d, 0x13c48372, 0xa171ece5, 0xf7554e59, 0x23a97699, 0x7425c5d8, 0x71e1120e, 0x6f2c68da], [0x24324b64, 0x9591b9b6, 0xc02ac704, 0x2da33472, 0x81ee1295, 0xc5de7fc9, 0x5d6e93c6, 0x6a646a44]⟩,
   ⟨[0xa39d6554, 0x48684061, 0xc3df57b6, 0xb70abf61, 0x58b9eee3, 0x9824afd6, 0x3a14a733, 0x46ebe9d1], [0xd74f8e94, 0x8e70f95d, 0x6afca4e2, 0xa9d922a2, 0x6988cc16, 0x519a9753, 0xd545af8a, 0x711def16]⟩,
   ⟨[0x811a2bf7, 0x362a5d95, 0x566b90ce, 0x42a84a33, 0x7c41ec87, 0x25cbc760, 0xd4b7dbee, 0x6b77e39c], [0x833015a4, 0xa98b8201, 0xc31b26f4, 0xe412e217, 0xe0090782, 0x518be8f0, 0x3db51d4e, 0x8d9f4b6]⟩,
   ⟨[0x297d421e, 0x2c80ce87, 0xadba1498, 0x2fd137f8, 0x2899aa14, 0xa2ed3d47, 0xfe4f365a, 0x2ac924a5], [0x666dc0a0, 0xac0389b7, 0x8abf3d9e, 0x3cc99739, 0xdfbff83a, 0x33060db6, 0x339c3b8, 0x54eee215]⟩,
   ⟨[0x820f7e4d, 0x6c3a4f5, 0x8c3d311, 0x86f083e2, 0xfe4b0476, 0x47e29984, 0xca7df6cf, 0x218f52e2], [0xbf2c2084, 0x59317e26, 0x289a10cf, 0xea9c865b, 0x2074fea3, 0x7aa1e50b, 0x4b3efc31, 0x708a1d8c]⟩,
   ⟨[0x864817d7, 0x34c5c63e, 0xd89e995b, 0xf614043, 0x975e2a03, 0x60ce8bce, 0x78493e0c, 0x70916e29], [0x216782c6, 0xbd0748f9, 0xed32fb72, 0x51c65a, 0x4dd64705, 0x9dc5f558, 0xeec14b50, 0x674f1a63]⟩,
   ⟨[0xdb633fd1, 0x73d6e68e, 0xf52f9537, 0x7b5f8303, 0x88a74cfb, 0x980fdddc, 0x47fc32d1, 0x6419c18f], [0x870b5d59, 0x93727b4c, 0xcf28021d, 0x4bce05de, 0xab4f0ce5, 0x3c059b47, 0xb85ffdbb, 0x77ca7f67]⟩,
   ⟨[0xc525088e, 0xdbeaddce, 0x390d2221, 0x561e12be, 0xd9ba7af0, 0xcd224fc1, 0x394dc073, 0x3744552], [0x21bb6b6e, 0xcfc67b49, 0x1b5f8e6a, 0xd234fd8d, 0x40b7f8b0, 0x6ddbc18b, 0xdaaccc74, 0x79f40857]⟩,
   ⟨[0x9dd71b9c, 0x30e5f990, 0x291124ef, 0xfcbfa5, 0x49b8c570, 0xbe595a25, 0xbc094446, 0x5b4b8141], [0x469191b6, 0xb22b4f04, 0xd73c4d38, 0x10845ac8, 0xed0c8224, 0x39c9f0fb, 0xf5813bee, 0x7e009dfb]⟩,
   ⟨[0xa61d09c0, 0xa47c2989, 0x59e55a9c, 0x3706f456, 0xea0259b9, 0x2373976f, 0x77d20cc, 0x13fc0e09], [0xe78d29cf, 0xbb24dd05, 0x822cfa02, 0xd8757a67, 0x3c55a4c6, 0x36ca7486, 0x3eeabbe1, 0x4234e689]⟩,
   ⟨[0xb46bdb51, 0xa2f54d14, 0x675bb770, 0x8a530b78, 0xde9f1f8b, 0x617d7e8e, 0x2dcc4712, 0x799b3e44], [0xb486fe8c, 0x658a31d8, 0x163d4af0, 0x45bafc29, 0xa5289c8d, 0x3a2c7f66, 0xb91ff3db, 0x4ecc3c7d]⟩],
  [⟨[0xdf4dfd43, 0x738cf1c7, 0xe987084c, 0x72943a2d, 0x2491ff24, 0xea21c05f, 0xda050094, 0x3d3f4ed7], [0x61c4054d, 0xf90644e4, 0x3a50e82a, 0x25379214, 0xc7def970, 0x47edb006, 0xf53f307, 0xf8f031c]⟩,
   ⟨[0x724976d5, 0x50feb6d8, 0xf40c7720, 0x57aa499f, 0xdaaf428, 0x6b80ac54, 0x1f6fc276, 0x7ac6845e], [0x17a4b9c5, 0x8ec7fab1, 0xed0c8f97, 0x8336dd62, 0xb7b7104e, 0x6014a510, 0xa2911c30, 0x4991a03b]⟩,
   ⟨[0xcbcc9ba3, 0x6d353975, 0xc4564492, 0x23e97e28, 0xf8aeed3e, 0xdf432fda, 0x6f6b472c, 0x11db40dd], [0x95aa0174, 0x5b87005b, 0x89d9f1a8, 0x1db41080, 0x689df208, 0x5a6bc444, 0xbf38ff8d, 0x16153f87]⟩,
   ⟨[0xffd3c814, 0xd217003f, 0xfd50af95, 0x1ade64c3, 0x9ffb8beb, 0x1936332c, 0xd70cd8d8, 0x6ee322dc], [0xf2a60976, 0xe40a0419, 0xef93b05b, 0xa62f6fa1, 0x596575ff, 0x5978206c, 0xb68bfe5c, 0x5cdca200]⟩,
   ⟨[0xb7949e33, 0x3fb16aed, 0x40304a1b, 0x34538928, 0x3bca4239, 0x7fa35a34, 0xee76919e, 0x22fd1aef], [0xf6a5d50, 0x1f8fe6a4, 0x26bba46b, 0x27cc704f, 0x3420cc52, 0x230fd0ca, 0xb3a83d85, 0x3e9e4da4]⟩,
   ⟨[0x7f5cc75e, 0x1d82390e, 0x49d0a605, 0x70256245, 0x4ff4bc44, 0x5b877813, 0xb5ec02e4, 0x28e6a057], [0x2e89fb84, 0xbc7a10da, 0x20e1ea00, 0x3af182e5, 0x9c507274, 0x4b590ffa, 0xaa7fd65b, 0x26ba94d6]⟩,
   ⟨[0x238cc195, 0xc02cc77c, 0xa97ee3e4, 0x3f175c97, 0xdfa1f9dc, 0x8a28fa23, 0x1f968d15, 0x35cac0ff], [0x37c7c773, 0xfc41b33, 0xbc999443, 0x71e06b10, 0x2c87b0a4, 0x73a1aba, 0x9e5e8b70, 0x29f29b12]⟩,
   ⟨[0xe491fe70, 0xaa25f348, 0xc1713992, 0x9371f94b, 0x4fa08818, 0x674b478c, 0xb1407431, 0x6f3c31fe], [0xd93dd5e1, 0xbb7d37fb, 0x7e04ee7a, 0xe34a40b8, 0xf3c33528, 0xcf82360d, 0x1477712, 0xa3b8ff5]⟩,
   ⟨[0x6b718511, 0xa4591471, 0xd2fd6b9b, 0x7b0ce8de, 0x6845dbef, 0xc42544fa, 0x63af476a, 0x456a6985], [0x9cde4e74, 0x5dd611f6, 0x2b346aeb, 0x86095683, 0x6e75b3d7, 0xd15c5da0, 0xc72d5d2c, 0x220ffd73]⟩,
   ⟨[0xd2ed888f, 0x478da345, 0xe04cbcc7, 0xa69d4fb9, 0xb3f1179d, 0xa427150a, 0xd5cea78a, 0x1dd3b8c2], [0xb8628a22, 0x9462eff0, 0xb2cb44a5, 0xb2ffff4a, 0x24039ba8, 0x8234a3ff, 0x916de889, 0x1be7202]⟩,
   ⟨[0x6dfcef0b, 0x51066985, 0xdf20cdee, 0x25729d98, 0x9693e5ef, 0x872fd39d, 0x2d859635, 0x72d03ae1], [0xdacaeb82, 0x3f28f84e, 0xcb5284d7, 0x9eb40fd6, 0xc5f54041, 0x66c2dca6, 0x1c1f2461, 0x4bdba382]⟩,
   ⟨[0xe0ed176, 0xe5342197, 0xa225a47f, 0xf588547a, 0x1feb2259, 0xc83b54ed, 0x92f3733d, 0x1b037913], [0x2271ecfa, 0x935c9782, 0x53cfe07c, 0x5f7e94a6, 0x1b40ca19, 0xbff5b0e6, 0x459445e1, 0x36c7851d]⟩,
   ⟨[0x588c9748, 0xb6547971, 0x11970562, 0xcfd8e81b, 0x702fe4fa, 0x41333c80, 0x962a993b, 0x2f153c8c], [0x8bda48ac, 0x28bbd6a, 0xfe1db02a, 0x7b076f88, 0x78fb3fc, 0xc9560400, 0x35907ea, 0x5dcc0946]⟩,
   ⟨[0xa6233f1c, 0x93d7cf33, 0xdf2a187c, 0x3184bc4, 0xe83dac32, 0x291149bc, 0xfaedf216, 0x575f4279], [0x86fc141, 0x101427b4, 0xd288562e, 0xc924f2ae, 0xeef5799a, 0xdb610463, 0x6a09661d, 0x20f18767]⟩,
   ⟨[0xf59d0c20, 0xe39bb775, 0x723a4ef2, 0x18da90e2, 0xf56b381b, 0x8e747a7b, 0xf98f26dc, 0x7ef67224], [0xe1f94b99, 0xb1373af5, 0xc3b6aa8, 0x1076fba6, 0xa3a7811c, 0x7fcd0017, 0x46554e7e, 0x6d1a6973]⟩,
   ⟨[0xb9ced2c2, 0xe5734077, 0x1f770914, 0xc94d17f8, 0x1cd248eb, 0x58b47bcb, 0x24804b6f, 0x2e06538c], [0x32e7ca19, 0x275d933f, 0x1fc9241e, 0x1b982b49, 0x3986b6ac, 0x8b8a6ed5, 0x35b4ea6a, 0x17568221]⟩],
  [⟨[0xe796327f, 0x90ad05a, 0xad21dd4b, 0xa78dae5e, 0x9c2f8cbe, 0x8eec9edb, 0x653e0f2d, 0x33e375e0], [0x8d67ac72, 0xda19eff2, 0x2737ab8c, 0xbfc7e62b, 0x4cf53c12, 0xbbf8bd1d, 0x45c6d555, 0x5abfe23f]⟩,
   ⟨[0xde39342, 0x32460b33, 0xb8977067, 0x3567454a, 0xf954592c, 0x10a1e47d, 0x4dd019c4, 0x4de8c6ef], [0x1bdaaafa, 0x1f1d296b, 0x3a75ad99, 0x4e6b8e8f, 0xa27fe061, 0x259015e1, 0x9f320632, 0x6b6a4820]⟩,
   ⟨[0xa0b5e605, 0x8aa089af, 0x1b4058fd, 0x1d6c1eee, 0xb4e89bef, 0x1d920534, 0x16163340, 0x722a3a35], [0xf33b49b2, 0xa3b9178c, 0x65558e90, 0xff8fe9bb, 0x9794efae, 0x94766bc0, 0xfdfaeb42, 0x79a1efa2]⟩,
   ⟨[0xbcb6d558, 0x2fe44b97, 0xdb8b0a79, 0xb4f4f402, 0x247c32e5, 0xf53d8ab1, 0x4da4c009, 0x3b883ce5], [0x2ec9f1c6, 0xb46168bd, 0x6b8fe01a, 0xd40bde7b, 0xcdfe509f, 0x60a5c168, 0x23be249e, 0x3314d878]⟩,
   ⟨[0x4d9f5769, 0x2511a85, 0xb49d6a8e, 0x8398f9bd, 0x5d2d7135, 0xe8d773f3, 0x9decc331, 0x9b3b8ab], [0x584c11d9, 0x8d2b269b, 0x6b6b86a9, 0xf7661944, 0xc7659af7, 0x719a3620, 0x37c27dbe, 0x3cfc8df0]⟩,
   ⟨[0x1145b14b, 0x5ee0be06, 0x23193ed6, 0xac6950e4, 0xdf244c7f, 0x7291c44c, 0x43d744ea, 0x4650c162], [0x34a084d8, 0x60b92d3f, 0x376e5414, 0xbbd44a0e, 0x980f36c, 0x5c0e488a, 0xd7991a09, 0x4e53fcca]⟩,
   ⟨[0x367b55c2, 0x7a2adbcf, 0x1fed467e, 0x96a88b75, 0xfb263845, 0x8e75e37e, 0xeb508dd0, 0x4c2e47b8], [0xb19fcd14, 0x20bf51de, 0x14cb67d0, 0xd9071749, 0x29ebda7c, 0xec90714b, 0x634c0f2e, 0x4acadaa6]⟩,
   ⟨[0xec715ec9, 0xa516b9b8, 0x42b8a87b, 0xc7dca263, 0xda27b456, 0x2ce450c9, 0xa8819f, 0x3c974812], [0xecded574, 0xf4822c23, 0x19fa48d4, 0xfa737fad, 0x45d718e0, 0xe34b2f2a, 0xbea7b540, 0x1d6f19fe]⟩,
   ⟨[0x98e24789, 0xadc8fce7, 0x45869609, 0xfe2f890c, 0x78a35c19, 0x6466e03c, 0xc1f34aa9, 0x24c70fed], [0x57747dd1, 0x89530f75, 0x2b8cde2d, 0x343de05b, 0x35cc8d5a, 0xc33134e3, 0xac9b4f2b, 0x3ccefc38]⟩,
   ⟨[0xef923364, 0x84c904b8, 0xbddd31d8, 0x46e1fecf, 0xfae79b6b, 0xa8126dd6, 0xfbf05c9a, 0x4a53c034], [0xbe8f255f, 0x44ca3acb, 0xec319885, 0x6f0fd374, 0xf1836dc2, 0xadbcb4aa, 0x65187ee9, 0x6cc3a596]⟩,
   ⟨[0xb397b5e7, 0x941e7821, 0xfee2a9d5, 0xd3457371, 0x66382f60, 0x9f69be44, 0xa1f49e9b, 0x6dcead04], [0x3bf21647, 0xdc6bc23b, 0xb5271be9, 0x1500fd7f, 0xf23fdf3d, 0x9b0994dd, 0x45065cf7, 0x38a2eceb]⟩,
   ⟨[0xdca8bf4, 0x2667cefe, 0xe46eb469, 0x8227acb3, 0xa75c5b8b, 0x4c20677d, 0xb36acdfe, 0x224fc5b4], [0x7a6a01d3, 0xa0007e14, 0xf8a64eed, 0x15c79558, 0x93dedc09, 0xfb58a76a, 0x26f10a98, 0x2057dddc]⟩,
   ⟨[0xbdb27ae4, 0x1ff658ae, 0xddd96647, 0x7f30df57, 0xc7294313, 0x63490b8d, 0x5435869e, 0xeaec573], [0xdf115b78, 0x85f05c49, 0x62992f5d, 0x95739c0c, 0x2b573963, 0x72f14319, 0x86328ff4, 0x5600e64]⟩,
   ⟨[0xeab0f425, 0x9be7331f, 0x74447c20, 0x2e4cf5aa, 0x66243d2a, 0x9b26f512, 0x84ab5627, 0x77c96722], [0x601673b4, 0xec545427, 0x2f127af7, 0xef6a34fb, 0xe2dfd269, 0x519559c1, 0x8258e37a, 0x34d7d754]⟩,
   ⟨[0x5e8b5281, 0xc113747b, 0xe04d779b, 0xc085456, 0x1ccbcfc6, 0x3e326052, 0x2a37d19f, 0x5c954cc1], [0x9124435b, 0xb1a4a5b3, 0x18ed98e7, 0x5e8b8d41, 0x144a3793, 0xc973d969, 0x88dd8b49, 0xcb98cc8]⟩,
   ⟨[0xb48d04df, 0xe0233b2, 0x7beaa4a5, 0x1b3916e0, 0xb672be8c, 0xa24a4be4, 0x845ab94d, 0x7a61506d], [0xe7f4ca3b, 0x160dfa0f, 0xd84c1148, 0xa9562c89, 0x92a276eb, 0x52979b95, 0x924e86e9, 0x17869b53]⟩],
  [⟨[0x1a86d0d8, 0x5d39f478, 0xfb8bc8a9, 0xde5932da, 0x2f5b4b70, 0xd706c6d7, 0x8a36afc2, 0x53f450fc], [0x1e550b3b, 0xe1dc3540, 0x8b7eb6d2, 0x475507dc, 0xdfa2e5f7, 0xf803f78a, 0xc48097ff, 0x40b5f263]⟩,
   ⟨[0x226cdb1f, 0x336fb00e, 0x88215c40, 0xddc1bb02, 0x73c07fd0, 0x6c4dd40e, 0x8f7d15e7, 0x4d0d2e49], [0xd2061402, 0xaf96e9b3, 0x1372fcf8, 0x15a3084a, 0x307b02d6, 0x91b571e6, 0x53ae7705, 0x2239592f]⟩,
   ⟨[0xc20b6645, 0x7d8615a1, 0xc7c4465b, 0xf4875767, 0x861702ab, 0xf6d3e718, 0x131f726a, 0x7f014a53], [0xdaab77ca, 0x30809f8f, 0x28f944d3, 0x7ce8dc61, 0x9aeef6a1, 0xf915111d, 0x206902fd, 0x246d7cc8]⟩,
   ⟨[0xef806225, 0x7677488b, 0xf4c75eae, 0x994c8104, 0x4e0c8988, 0x17586d4e, 0x90e33a2a, 0x70e52580], [0x22d2fed, 0xb993f26a, 0x689fbfbd, 0x955c130d, 0xa3612e8e, 0xd3d1c63, 0xb91a8de6, 0x423d73e1]⟩,
   ⟨[0x3027164f, 0x7274be08, 0x42fdb769, 0xde907b49, 0xb697060d, 0x61d74449, 0x26602cc9, 0x18a5fdc2], [0x49caf4a, 0xb08dc02b, 0x78dba1f1, 0xc84af485, 0x7178e4df, 0xa5b3519, 0x5b26d0fe, 0x6ec7a7a5]⟩,
   ⟨[0x88554f05, 0xdef1782f, 0xd8d6df47, 0xb73e7333, 0x90e9c67a, 0x1ddf9022, 0xd56181ac, 0x5d217b51], [0xe27f90ee, 0x7a338c7b, 0xd84a177, 0xb97ccd2a, 0x7c5e3fa9, 0x3e101601, 0x30ff0918, 0x2706e77c]⟩,
   ⟨[0x72a7cb9f, 0x1bd1274f, 0x622db90, 0x8b60357a, 0x2151bb23, 0x140e14a, 0xe9a30c4c, 0x358d7dda], [0x89bfb2c6, 0x3b153060, 0xb6757c69, 0x47462c79, 0xb43ef986, 0x2b22239d, 0xb774de3, 0x6793671f]⟩,
   ⟨[0xf6f8edc6, 0x99edb02e, 0xc4257dd9, 0x24432760, 0x336eed2, 0x4fdd7301, 0xf6c6506b, 0x44879709], [0x13f18d89, 0x107c7de2, 0xa5701fbd, 0x71c71dfb, 0xc7de3e0b, 0x97017e24, 0xfc9eddc2, 0xf8d7e09]⟩,
   ⟨[0x3897e01d, 0x7a0bb3b1, 0xc5892bde, 0x7fd4f504, 0xab752928, 0x2ea9aa77, 0x9078b466, 0x19a82f55], [0x55a0f0d9, 0xef2842c5, 0x15b6f2b4, 0x5501eee9, 0x942aa4b4, 0x9665ea6f, 0xe707c32, 0x15f41f4]⟩,
   ⟨[0x9c6b6fd6, 0x1b4d6a91, 0x68217afc, 0xcfd2cee9, 0xbbc9284d, 0xc5076256, 0xac36547b, 0x4c7f4eef], [0x65ee1907, 0xab1aad2c, 0xbac25425, 0xbcfe8c77, 0xc9048a35, 0x38ba0f85, 0x60a035f6, 0x300e6ac4]⟩,
   ⟨[0x34707cc6, 0xa8edbc5e, 0x56adfc16, 0x3da6bc51, 0xca8b6f3f, 0x5c7cb5e1, 0x2d612dfa, 0x76e4a028], [0x64f49d39, 0x75ab66fd, 0xc387a739, 0x5af9879d, 0x3e9edbcf, 0x83964808, 0x7f4c4ffe, 0x555d8bbd]⟩,
   ⟨[0x3c5590b0, 0xaae8a2fe, 0x8ab34213, 0x461c6ccc, 0x9e719b77, 0xb2f3e822, 0x663188bb, 0x25b8fca8], [0x72548131, 0xaa7a047b, 0x189fa6f0, 0x878ffee, 0xce3e17c3, 0x9e7fb402, 0x44418277, 0x6f260d93]⟩,
   ⟨[0xb703b647, 0xef1c290, 0x651673e4, 0x995009fa, 0xbe46362d, 0x661f76d7, 0x23e56e7a, 0x74b00fd1], [0xa1a50e4b, 0x9557d0ab, 0x587688ce, 0xc5a1cf95, 0x7ae08eca, 0x2a14d1b2, 0x3c23d507, 0x2da8816c]⟩,
   ⟨[0xb9934883, 0x51cb405f, 0x1a6864b, 0xc99a67d4, 0x6cdfffc3, 0xccf62233, 0x98fe0b79, 0x2938f9f9], [0x39a5aa28, 0x77666911, 0x2427bfc0, 0xdf56cbb5, 0x189eb66d, 0xa39be968, 0xa64fd2ab, 0x71e6e105]⟩,
   ⟨[0x60f9d20b, 0xa0c6f795, 0x765670cc, 0xe06dc8bb, 0xa67275e0, 0x9fa1dd58, 0xe2d23bbb, 0xf7f670d], [0x33fb15ea, 0xf8f07cf3, 0x723a0271, 0x1d09b592, 0x4e6fcaab, 0xf1402923, 0xae301940, 0x5be1273]⟩,
   ⟨[0x114afd1e, 0x2d83906c, 0xc88e5761, 0x91474fd, 0xef9e4f9b, 0xaff18eeb, 0xf4e646ed, 0x136ecae5], [0xeb01808f, 0xef4526d0, 0x940c0aec, 0x3923ebba, 0xa437f460, 0xab34160c, 0x421ad57c, 0x7a46966e]⟩]]

/-- `lut_cmb[j][k]`. -/
def lut_cmb (j k : Nat) : AffW (List Nat) := (lut_data.getD j []).getD k ⟨[], []⟩

end Gost.Ecp_Test_32

import Verif.Model.FiatField

/-!
# The functions, constants and table of `/repo/ecp_id_tc26_gost_3410_2012_512_paramSetB.c`

64 bit version of the file (`__SIZEOF_INT128__` is defined).  Generated by `tools/mkfiat.py`, statement by statement;
see `Verif/Model/Fiat.lean` for the meaning.  All line numbers refer to this file.
-/

namespace Gost.Ecp_tc26_512_paramSetB

set_option maxRecDepth 100000

/-- `fiat_id_tc26_gost_3410_2012_512_paramSetB_mul`, lines 246-1478. -/
def mul : CProg := ⟨[
  .set (.a 1), .set (.a 2), .set (.a 3), .set (.a 4), .set (.a 5), .set (.a 6), .set (.a 7), .set (.a 0), .mulx 64 (.x 8) (.b 7),
  .mulx 64 (.x 8) (.b 6), .mulx 64 (.x 8) (.b 5), .mulx 64 (.x 8) (.b 4), .mulx 64 (.x 8) (.b 3), .mulx 64 (.x 8) (.b 2),
  .mulx 64 (.x 8) (.b 1), .mulx 64 (.x 8) (.b 0), .adc 128 64 (.c 0) (.x 24) (.x 21), .adc 128 64 (.x 26) (.x 22) (.x 19),
  .adc 128 64 (.x 28) (.x 20) (.x 17), .adc 128 64 (.x 30) (.x 18) (.x 15), .adc 128 64 (.x 32) (.x 16) (.x 13),
  .adc 128 64 (.x 34) (.x 14) (.x 11), .adc 128 64 (.x 36) (.x 12) (.x 9), .set (.add 64 (.x 38) (.x 10)),
  .mulx 64 (.x 23) (.c 0x4e6a171024e6a171), .mulx 64 (.x 40) (.c 0x8000000000000000), .mulx 64 (.x 40) (.c 0x6f),
  .adc 128 64 (.c 0) (.x 23) (.x 44), .adc 128 64 (.x 47) (.x 25) (.x 45), .adc 128 64 (.x 49) (.x 27) (.c 0),
  .adc 128 64 (.x 51) (.x 29) (.c 0), .adc 128 64 (.x 53) (.x 31) (.c 0), .adc 128 64 (.x 55) (.x 33) (.c 0),
  .adc 128 64 (.x 57) (.x 35) (.c 0), .adc 128 64 (.x 59) (.x 37) (.x 42), .adc 128 64 (.x 61) (.x 39) (.x 43), .mulx 64 (.x 1) (.b 7),
  .mulx 64 (.x 1) (.b 6), .mulx 64 (.x 1) (.b 5), .mulx 64 (.x 1) (.b 4), .mulx 64 (.x 1) (.b 3), .mulx 64 (.x 1) (.b 2),
  .mulx 64 (.x 1) (.b 1), .mulx 64 (.x 1) (.b 0), .adc 128 64 (.c 0) (.x 79) (.x 76), .adc 128 64 (.x 81) (.x 77) (.x 74),
  .adc 128 64 (.x 83) (.x 75) (.x 72), .adc 128 64 (.x 85) (.x 73) (.x 70), .adc 128 64 (.x 87) (.x 71) (.x 68),
  .adc 128 64 (.x 89) (.x 69) (.x 66), .adc 128 64 (.x 91) (.x 67) (.x 64), .set (.add 64 (.x 93) (.x 65)),
  .adc 128 64 (.c 0) (.x 48) (.x 78), .adc 128 64 (.x 96) (.x 50) (.x 80), .adc 128 64 (.x 98) (.x 52) (.x 82),
  .adc 128 64 (.x 100) (.x 54) (.x 84), .adc 128 64 (.x 102) (.x 56) (.x 86), .adc 128 64 (.x 104) (.x 58) (.x 88),
  .adc 128 64 (.x 106) (.x 60) (.x 90), .adc 128 64 (.x 108) (.x 62) (.x 92), .adc 128 64 (.x 110) (.x 63) (.x 94),
  .mulx 64 (.x 95) (.c 0x4e6a171024e6a171), .mulx 64 (.x 113) (.c 0x8000000000000000), .mulx 64 (.x 113) (.c 0x6f),
  .adc 128 64 (.c 0) (.x 95) (.x 117), .adc 128 64 (.x 120) (.x 97) (.x 118), .adc 128 64 (.x 122) (.x 99) (.c 0),
  .adc 128 64 (.x 124) (.x 101) (.c 0), .adc 128 64 (.x 126) (.x 103) (.c 0), .adc 128 64 (.x 128) (.x 105) (.c 0),
  .adc 128 64 (.x 130) (.x 107) (.c 0), .adc 128 64 (.x 132) (.x 109) (.x 115), .adc 128 64 (.x 134) (.x 111) (.x 116),
  .set (.add 64 (.x 136) (.x 112)), .mulx 64 (.x 2) (.b 7), .mulx 64 (.x 2) (.b 6), .mulx 64 (.x 2) (.b 5), .mulx 64 (.x 2) (.b 4),
  .mulx 64 (.x 2) (.b 3), .mulx 64 (.x 2) (.b 2), .mulx 64 (.x 2) (.b 1), .mulx 64 (.x 2) (.b 0), .adc 128 64 (.c 0) (.x 153) (.x 150),
  .adc 128 64 (.x 155) (.x 151) (.x 148), .adc 128 64 (.x 157) (.x 149) (.x 146), .adc 128 64 (.x 159) (.x 147) (.x 144),
  .adc 128 64 (.x 161) (.x 145) (.x 142), .adc 128 64 (.x 163) (.x 143) (.x 140), .adc 128 64 (.x 165) (.x 141) (.x 138),
  .set (.add 64 (.x 167) (.x 139)), .adc 128 64 (.c 0) (.x 121) (.x 152), .adc 128 64 (.x 170) (.x 123) (.x 154),
  .adc 128 64 (.x 172) (.x 125) (.x 156), .adc 128 64 (.x 174) (.x 127) (.x 158), .adc 128 64 (.x 176) (.x 129) (.x 160),
  .adc 128 64 (.x 178) (.x 131) (.x 162), .adc 128 64 (.x 180) (.x 133) (.x 164), .adc 128 64 (.x 182) (.x 135) (.x 166),
  .adc 128 64 (.x 184) (.x 137) (.x 168), .mulx 64 (.x 169) (.c 0x4e6a171024e6a171), .mulx 64 (.x 187) (.c 0x8000000000000000),
  .mulx 64 (.x 187) (.c 0x6f), .adc 128 64 (.c 0) (.x 169) (.x 191), .adc 128 64 (.x 194) (.x 171) (.x 192),
  .adc 128 64 (.x 196) (.x 173) (.c 0), .adc 128 64 (.x 198) (.x 175) (.c 0), .adc 128 64 (.x 200) (.x 177) (.c 0),
  .adc 128 64 (.x 202) (.x 179) (.c 0), .adc 128 64 (.x 204) (.x 181) (.c 0), .adc 128 64 (.x 206) (.x 183) (.x 189),
  .adc 128 64 (.x 208) (.x 185) (.x 190), .set (.add 64 (.x 210) (.x 186)), .mulx 64 (.x 3) (.b 7), .mulx 64 (.x 3) (.b 6),
  .mulx 64 (.x 3) (.b 5), .mulx 64 (.x 3) (.b 4), .mulx 64 (.x 3) (.b 3), .mulx 64 (.x 3) (.b 2), .mulx 64 (.x 3) (.b 1),
  .mulx 64 (.x 3) (.b 0), .adc 128 64 (.c 0) (.x 227) (.x 224), .adc 128 64 (.x 229) (.x 225) (.x 222),
  .adc 128 64 (.x 231) (.x 223) (.x 220), .adc 128 64 (.x 233) (.x 221) (.x 218), .adc 128 64 (.x 235) (.x 219) (.x 216),
  .adc 128 64 (.x 237) (.x 217) (.x 214), .adc 128 64 (.x 239) (.x 215) (.x 212), .set (.add 64 (.x 241) (.x 213)),
  .adc 128 64 (.c 0) (.x 195) (.x 226), .adc 128 64 (.x 244) (.x 197) (.x 228), .adc 128 64 (.x 246) (.x 199) (.x 230),
  .adc 128 64 (.x 248) (.x 201) (.x 232), .adc 128 64 (.x 250) (.x 203) (.x 234), .adc 128 64 (.x 252) (.x 205) (.x 236),
  .adc 128 64 (.x 254) (.x 207) (.x 238), .adc 128 64 (.x 256) (.x 209) (.x 240), .adc 128 64 (.x 258) (.x 211) (.x 242),
  .mulx 64 (.x 243) (.c 0x4e6a171024e6a171), .mulx 64 (.x 261) (.c 0x8000000000000000), .mulx 64 (.x 261) (.c 0x6f),
  .adc 128 64 (.c 0) (.x 243) (.x 265), .adc 128 64 (.x 268) (.x 245) (.x 266), .adc 128 64 (.x 270) (.x 247) (.c 0),
  .adc 128 64 (.x 272) (.x 249) (.c 0), .adc 128 64 (.x 274) (.x 251) (.c 0), .adc 128 64 (.x 276) (.x 253) (.c 0),
  .adc 128 64 (.x 278) (.x 255) (.c 0), .adc 128 64 (.x 280) (.x 257) (.x 263), .adc 128 64 (.x 282) (.x 259) (.x 264),
  .set (.add 64 (.x 284) (.x 260)), .mulx 64 (.x 4) (.b 7), .mulx 64 (.x 4) (.b 6), .mulx 64 (.x 4) (.b 5), .mulx 64 (.x 4) (.b 4),
  .mulx 64 (.x 4) (.b 3), .mulx 64 (.x 4) (.b 2), .mulx 64 (.x 4) (.b 1), .mulx 64 (.x 4) (.b 0), .adc 128 64 (.c 0) (.x 301) (.x 298),
  .adc 128 64 (.x 303) (.x 299) (.x 296), .adc 128 64 (.x 305) (.x 297) (.x 294), .adc 128 64 (.x 307) (.x 295) (.x 292),
  .adc 128 64 (.x 309) (.x 293) (.x 290), .adc 128 64 (.x 311) (.x 291) (.x 288), .adc 128 64 (.x 313) (.x 289) (.x 286),
  .set (.add 64 (.x 315) (.x 287)), .adc 128 64 (.c 0) (.x 269) (.x 300), .adc 128 64 (.x 318) (.x 271) (.x 302),
  .adc 128 64 (.x 320) (.x 273) (.x 304), .adc 128 64 (.x 322) (.x 275) (.x 306), .adc 128 64 (.x 324) (.x 277) (.x 308),
  .adc 128 64 (.x 326) (.x 279) (.x 310), .adc 128 64 (.x 328) (.x 281) (.x 312), .adc 128 64 (.x 330) (.x 283) (.x 314),
  .adc 128 64 (.x 332) (.x 285) (.x 316), .mulx 64 (.x 317) (.c 0x4e6a171024e6a171), .mulx 64 (.x 335) (.c 0x8000000000000000),
  .mulx 64 (.x 335) (.c 0x6f), .adc 128 64 (.c 0) (.x 317) (.x 339), .adc 128 64 (.x 342) (.x 319) (.x 340),
  .adc 128 64 (.x 344) (.x 321) (.c 0), .adc 128 64 (.x 346) (.x 323) (.c 0), .adc 128 64 (.x 348) (.x 325) (.c 0),
  .adc 128 64 (.x 350) (.x 327) (.c 0), .adc 128 64 (.x 352) (.x 329) (.c 0), .adc 128 64 (.x 354) (.x 331) (.x 337),
  .adc 128 64 (.x 356) (.x 333) (.x 338), .set (.add 64 (.x 358) (.x 334)), .mulx 64 (.x 5) (.b 7), .mulx 64 (.x 5) (.b 6),
  .mulx 64 (.x 5) (.b 5), .mulx 64 (.x 5) (.b 4), .mulx 64 (.x 5) (.b 3), .mulx 64 (.x 5) (.b 2), .mulx 64 (.x 5) (.b 1),
  .mulx 64 (.x 5) (.b 0), .adc 128 64 (.c 0) (.x 375) (.x 372), .adc 128 64 (.x 377) (.x 373) (.x 370),
  .adc 128 64 (.x 379) (.x 371) (.x 368), .adc 128 64 (.x 381) (.x 369) (.x 366), .adc 128 64 (.x 383) (.x 367) (.x 364),
  .adc 128 64 (.x 385) (.x 365) (.x 362), .adc 128 64 (.x 387) (.x 363) (.x 360), .set (.add 64 (.x 389) (.x 361)),
  .adc 128 64 (.c 0) (.x 343) (.x 374), .adc 128 64 (.x 392) (.x 345) (.x 376), .adc 128 64 (.x 394) (.x 347) (.x 378),
  .adc 128 64 (.x 396) (.x 349) (.x 380), .adc 128 64 (.x 398) (.x 351) (.x 382), .adc 128 64 (.x 400) (.x 353) (.x 384),
  .adc 128 64 (.x 402) (.x 355) (.x 386), .adc 128 64 (.x 404) (.x 357) (.x 388), .adc 128 64 (.x 406) (.x 359) (.x 390),
  .mulx 64 (.x 391) (.c 0x4e6a171024e6a171), .mulx 64 (.x 409) (.c 0x8000000000000000), .mulx 64 (.x 409) (.c 0x6f),
  .adc 128 64 (.c 0) (.x 391) (.x 413), .adc 128 64 (.x 416) (.x 393) (.x 414), .adc 128 64 (.x 418) (.x 395) (.c 0),
  .adc 128 64 (.x 420) (.x 397) (.c 0), .adc 128 64 (.x 422) (.x 399) (.c 0), .adc 128 64 (.x 424) (.x 401) (.c 0),
  .adc 128 64 (.x 426) (.x 403) (.c 0), .adc 128 64 (.x 428) (.x 405) (.x 411), .adc 128 64 (.x 430) (.x 407) (.x 412),
  .set (.add 64 (.x 432) (.x 408)), .mulx 64 (.x 6) (.b 7), .mulx 64 (.x 6) (.b 6), .mulx 64 (.x 6) (.b 5), .mulx 64 (.x 6) (.b 4),
  .mulx 64 (.x 6) (.b 3), .mulx 64 (.x 6) (.b 2), .mulx 64 (.x 6) (.b 1), .mulx 64 (.x 6) (.b 0), .adc 128 64 (.c 0) (.x 449) (.x 446),
  .adc 128 64 (.x 451) (.x 447) (.x 444), .adc 128 64 (.x 453) (.x 445) (.x 442), .adc 128 64 (.x 455) (.x 443) (.x 440),
  .adc 128 64 (.x 457) (.x 441) (.x 438), .adc 128 64 (.x 459) (.x 439) (.x 436), .adc 128 64 (.x 461) (.x 437) (.x 434),
  .set (.add 64 (.x 463) (.x 435)), .adc 128 64 (.c 0) (.x 417) (.x 448), .adc 128 64 (.x 466) (.x 419) (.x 450),
  .adc 128 64 (.x 468) (.x 421) (.x 452), .adc 128 64 (.x 470) (.x 423) (.x 454), .adc 128 64 (.x 472) (.x 425) (.x 456),
  .adc 128 64 (.x 474) (.x 427) (.x 458), .adc 128 64 (.x 476) (.x 429) (.x 460), .adc 128 64 (.x 478) (.x 431) (.x 462),
  .adc 128 64 (.x 480) (.x 433) (.x 464), .mulx 64 (.x 465) (.c 0x4e6a171024e6a171), .mulx 64 (.x 483) (.c 0x8000000000000000),
  .mulx 64 (.x 483) (.c 0x6f), .adc 128 64 (.c 0) (.x 465) (.x 487), .adc 128 64 (.x 490) (.x 467) (.x 488),
  .adc 128 64 (.x 492) (.x 469) (.c 0), .adc 128 64 (.x 494) (.x 471) (.c 0), .adc 128 64 (.x 496) (.x 473) (.c 0),
  .adc 128 64 (.x 498) (.x 475) (.c 0), .adc 128 64 (.x 500) (.x 477) (.c 0), .adc 128 64 (.x 502) (.x 479) (.x 485),
  .adc 128 64 (.x 504) (.x 481) (.x 486), .set (.add 64 (.x 506) (.x 482)), .mulx 64 (.x 7) (.b 7), .mulx 64 (.x 7) (.b 6),
  .mulx 64 (.x 7) (.b 5), .mulx 64 (.x 7) (.b 4), .mulx 64 (.x 7) (.b 3), .mulx 64 (.x 7) (.b 2), .mulx 64 (.x 7) (.b 1),
  .mulx 64 (.x 7) (.b 0), .adc 128 64 (.c 0) (.x 523) (.x 520), .adc 128 64 (.x 525) (.x 521) (.x 518),
  .adc 128 64 (.x 527) (.x 519) (.x 516), .adc 128 64 (.x 529) (.x 517) (.x 514), .adc 128 64 (.x 531) (.x 515) (.x 512),
  .adc 128 64 (.x 533) (.x 513) (.x 510), .adc 128 64 (.x 535) (.x 511) (.x 508), .set (.add 64 (.x 537) (.x 509)),
  .adc 128 64 (.c 0) (.x 491) (.x 522), .adc 128 64 (.x 540) (.x 493) (.x 524), .adc 128 64 (.x 542) (.x 495) (.x 526),
  .adc 128 64 (.x 544) (.x 497) (.x 528), .adc 128 64 (.x 546) (.x 499) (.x 530), .adc 128 64 (.x 548) (.x 501) (.x 532),
  .adc 128 64 (.x 550) (.x 503) (.x 534), .adc 128 64 (.x 552) (.x 505) (.x 536), .adc 128 64 (.x 554) (.x 507) (.x 538),
  .mulx 64 (.x 539) (.c 0x4e6a171024e6a171), .mulx 64 (.x 557) (.c 0x8000000000000000), .mulx 64 (.x 557) (.c 0x6f),
  .adc 128 64 (.c 0) (.x 539) (.x 561), .adc 128 64 (.x 564) (.x 541) (.x 562), .adc 128 64 (.x 566) (.x 543) (.c 0),
  .adc 128 64 (.x 568) (.x 545) (.c 0), .adc 128 64 (.x 570) (.x 547) (.c 0), .adc 128 64 (.x 572) (.x 549) (.c 0),
  .adc 128 64 (.x 574) (.x 551) (.c 0), .adc 128 64 (.x 576) (.x 553) (.x 559), .adc 128 64 (.x 578) (.x 555) (.x 560),
  .set (.add 64 (.x 580) (.x 556)), .sbb 128 64 (.c 0) (.x 565) (.c 0x6f), .sbb 128 64 (.x 583) (.x 567) (.c 0),
  .sbb 128 64 (.x 585) (.x 569) (.c 0), .sbb 128 64 (.x 587) (.x 571) (.c 0), .sbb 128 64 (.x 589) (.x 573) (.c 0),
  .sbb 128 64 (.x 591) (.x 575) (.c 0), .sbb 128 64 (.x 593) (.x 577) (.c 0), .sbb 128 64 (.x 595) (.x 579) (.c 0x8000000000000000),
  .sbb 128 64 (.x 597) (.x 581) (.c 0), .cmov 64 (.x 599) (.x 582) (.x 565), .cmov 64 (.x 599) (.x 584) (.x 567),
  .cmov 64 (.x 599) (.x 586) (.x 569), .cmov 64 (.x 599) (.x 588) (.x 571), .cmov 64 (.x 599) (.x 590) (.x 573),
  .cmov 64 (.x 599) (.x 592) (.x 575), .cmov 64 (.x 599) (.x 594) (.x 577), .cmov 64 (.x 599) (.x 596) (.x 579)], [600, 601, 602, 603, 604, 605, 606, 607]⟩

/-- `fiat_id_tc26_gost_3410_2012_512_paramSetB_square`, lines 1493-2725. -/
def square : CProg := ⟨[
  .set (.a 1), .set (.a 2), .set (.a 3), .set (.a 4), .set (.a 5), .set (.a 6), .set (.a 7), .set (.a 0), .mulx 64 (.x 8) (.a 7),
  .mulx 64 (.x 8) (.a 6), .mulx 64 (.x 8) (.a 5), .mulx 64 (.x 8) (.a 4), .mulx 64 (.x 8) (.a 3), .mulx 64 (.x 8) (.a 2),
  .mulx 64 (.x 8) (.a 1), .mulx 64 (.x 8) (.a 0), .adc 128 64 (.c 0) (.x 24) (.x 21), .adc 128 64 (.x 26) (.x 22) (.x 19),
  .adc 128 64 (.x 28) (.x 20) (.x 17), .adc 128 64 (.x 30) (.x 18) (.x 15), .adc 128 64 (.x 32) (.x 16) (.x 13),
  .adc 128 64 (.x 34) (.x 14) (.x 11), .adc 128 64 (.x 36) (.x 12) (.x 9), .set (.add 64 (.x 38) (.x 10)),
  .mulx 64 (.x 23) (.c 0x4e6a171024e6a171), .mulx 64 (.x 40) (.c 0x8000000000000000), .mulx 64 (.x 40) (.c 0x6f),
  .adc 128 64 (.c 0) (.x 23) (.x 44), .adc 128 64 (.x 47) (.x 25) (.x 45), .adc 128 64 (.x 49) (.x 27) (.c 0),
  .adc 128 64 (.x 51) (.x 29) (.c 0), .adc 128 64 (.x 53) (.x 31) (.c 0), .adc 128 64 (.x 55) (.x 33) (.c 0),
  .adc 128 64 (.x 57) (.x 35) (.c 0), .adc 128 64 (.x 59) (.x 37) (.x 42), .adc 128 64 (.x 61) (.x 39) (.x 43), .mulx 64 (.x 1) (.a 7),
  .mulx 64 (.x 1) (.a 6), .mulx 64 (.x 1) (.a 5), .mulx 64 (.x 1) (.a 4), .mulx 64 (.x 1) (.a 3), .mulx 64 (.x 1) (.a 2),
  .mulx 64 (.x 1) (.a 1), .mulx 64 (.x 1) (.a 0), .adc 128 64 (.c 0) (.x 79) (.x 76), .adc 128 64 (.x 81) (.x 77) (.x 74),
  .adc 128 64 (.x 83) (.x 75) (.x 72), .adc 128 64 (.x 85) (.x 73) (.x 70), .adc 128 64 (.x 87) (.x 71) (.x 68),
  .adc 128 64 (.x 89) (.x 69) (.x 66), .adc 128 64 (.x 91) (.x 67) (.x 64), .set (.add 64 (.x 93) (.x 65)),
  .adc 128 64 (.c 0) (.x 48) (.x 78), .adc 128 64 (.x 96) (.x 50) (.x 80), .adc 128 64 (.x 98) (.x 52) (.x 82),
  .adc 128 64 (.x 100) (.x 54) (.x 84), .adc 128 64 (.x 102) (.x 56) (.x 86), .adc 128 64 (.x 104) (.x 58) (.x 88),
  .adc 128 64 (.x 106) (.x 60) (.x 90), .adc 128 64 (.x 108) (.x 62) (.x 92), .adc 128 64 (.x 110) (.x 63) (.x 94),
  .mulx 64 (.x 95) (.c 0x4e6a171024e6a171), .mulx 64 (.x 113) (.c 0x8000000000000000), .mulx 64 (.x 113) (.c 0x6f),
  .adc 128 64 (.c 0) (.x 95) (.x 117), .adc 128 64 (.x 120) (.x 97) (.x 118), .adc 128 64 (.x 122) (.x 99) (.c 0),
  .adc 128 64 (.x 124) (.x 101) (.c 0), .adc 128 64 (.x 126) (.x 103) (.c 0), .adc 128 64 (.x 128) (.x 105) (.c 0),
  .adc 128 64 (.x 130) (.x 107) (.c 0), .adc 128 64 (.x 132) (.x 109) (.x 115), .adc 128 64 (.x 134) (.x 111) (.x 116),
  .set (.add 64 (.x 136) (.x 112)), .mulx 64 (.x 2) (.a 7), .mulx 64 (.x 2) (.a 6), .mulx 64 (.x 2) (.a 5), .mulx 64 (.x 2) (.a 4),
  .mulx 64 (.x 2) (.a 3), .mulx 64 (.x 2) (.a 2), .mulx 64 (.x 2) (.a 1), .mulx 64 (.x 2) (.a 0), .adc 128 64 (.c 0) (.x 153) (.x 150),
  .adc 128 64 (.x 155) (.x 151) (.x 148), .adc 128 64 (.x 157) (.x 149) (.x 146), .adc 128 64 (.x 159) (.x 147) (.x 144),
  .adc 128 64 (.x 161) (.x 145) (.x 142), .adc 128 64 (.x 163) (.x 143) (.x 140), .adc 128 64 (.x 165) (.x 141) (.x 138),
  .set (.add 64 (.x 167) (.x 139)), .adc 128 64 (.c 0) (.x 121) (.x 152), .adc 128 64 (.x 170) (.x 123) (.x 154),
  .adc 128 64 (.x 172) (.x 125) (.x 156), .adc 128 64 (.x 174) (.x 127) (.x 158), .adc 128 64 (.x 176) (.x 129) (.x 160),
  .adc 128 64 (.x 178) (.x 131) (.x 162), .adc 128 64 (.x 180) (.x 133) (.x 164), .adc 128 64 (.x 182) (.x 135) (.x 166),
  .adc 128 64 (.x 184) (.x 137) (.x 168), .mulx 64 (.x 169) (.c 0x4e6a171024e6a171), .mulx 64 (.x 187) (.c 0x8000000000000000),
  .mulx 64 (.x 187) (.c 0x6f), .adc 128 64 (.c 0) (.x 169) (.x 191), .adc 128 64 (.x 194) (.x 171) (.x 192),
  .adc 128 64 (.x 196) (.x 173) (.c 0), .adc 128 64 (.x 198) (.x 175) (.c 0), .adc 128 64 (.x 200) (.x 177) (.c 0),
  .adc 128 64 (.x 202) (.x 179) (.c 0), .adc 128 64 (.x 204) (.x 181) (.c 0), .adc 128 64 (.x 206) (.x 183) (.x 189),
  .adc 128 64 (.x 208) (.x 185) (.x 190), .set (.add 64 (.x 210) (.x 186)), .mulx 64 (.x 3) (.a 7), .mulx 64 (.x 3) (.a 6),
  .mulx 64 (.x 3) (.a 5), .mulx 64 (.x 3) (.a 4), .mulx 64 (.x 3) (.a 3), .mulx 64 (.x 3) (.a 2), .mulx 64 (.x 3) (.a 1),
  .mulx 64 (.x 3) (.a 0), .adc 128 64 (.c 0) (.x 227) (.x 224), .adc 128 64 (.x 229) (.x 225) (.x 222),
  .adc 128 64 (.x 231) (.x 223) (.x 220), .adc 128 64 (.x 233) (.x 221) (.x 218), .adc 128 64 (.x 235) (.x 219) (.x 216),
  .adc 128 64 (.x 237) (.x 217) (.x 214), .adc 128 64 (.x 239) (.x 215) (.x 212), .set (.add 64 (.x 241) (.x 213)),
  .adc 128 64 (.c 0) (.x 195) (.x 226), .adc 128 64 (.x 244) (.x 197) (.x 228), .adc 128 64 (.x 246) (.x 199) (.x 230),
  .adc 128 64 (.x 248) (.x 201) (.x 232), .adc 128 64 (.x 250) (.x 203) (.x 234), .adc 128 64 (.x 252) (.x 205) (.x 236),
  .adc 128 64 (.x 254) (.x 207) (.x 238), .adc 128 64 (.x 256) (.x 209) (.x 240), .adc 128 64 (.x 258) (.x 211) (.x 242),
  .mulx 64 (.x 243) (.c 0x4e6a171024e6a171), .mulx 64 (.x 261) (.c 0x8000000000000000), .mulx 64 (.x 261) (.c 0x6f),
  .adc 128 64 (.c 0) (.x 243) (.x 265), .adc 128 64 (.x 268) (.x 245) (.x 266), .adc 128 64 (.x 270) (.x 247) (.c 0),
  .adc 128 64 (.x 272) (.x 249) (.c 0), .adc 128 64 (.x 274) (.x 251) (.c 0), .adc 128 64 (.x 276) (.x 253) (.c 0),
  .adc 128 64 (.x 278) (.x 255) (.c 0), .adc 128 64 (.x 280) (.x 257) (.x 263), .adc 128 64 (.x 282) (.x 259) (.x 264),
  .set (.add 64 (.x 284) (.x 260)), .mulx 64 (.x 4) (.a 7), .mulx 64 (.x 4) (.a 6), .mulx 64 (.x 4) (.a 5), .mulx 64 (.x 4) (.a 4),
  .mulx 64 (.x 4) (.a 3), .mulx 64 (.x 4) (.a 2), .mulx 64 (.x 4) (.a 1), .mulx 64 (.x 4) (.a 0), .adc 128 64 (.c 0) (.x 301) (.x 298),
  .adc 128 64 (.x 303) (.x 299) (.x 296), .adc 128 64 (.x 305) (.x 297) (.x 294), .adc 128 64 (.x 307) (.x 295) (.x 292),
  .adc 128 64 (.x 309) (.x 293) (.x 290), .adc 128 64 (.x 311) (.x 291) (.x 288), .adc 128 64 (.x 313) (.x 289) (.x 286),
  .set (.add 64 (.x 315) (.x 287)), .adc 128 64 (.c 0) (.x 269) (.x 300), .adc 128 64 (.x 318) (.x 271) (.x 302),
  .adc 128 64 (.x 320) (.x 273) (.x 304), .adc 128 64 (.x 322) (.x 275) (.x 306), .adc 128 64 (.x 324) (.x 277) (.x 308),
  .adc 128 64 (.x 326) (.x 279) (.x 310), .adc 128 64 (.x 328) (.x 281) (.x 312), .adc 128 64 (.x 330) (.x 283) (.x 314),
  .adc 128 64 (.x 332) (.x 285) (.x 316), .mulx 64 (.x 317) (.c 0x4e6a171024e6a171), .mulx 64 (.x 335) (.c 0x8000000000000000),
  .mulx 64 (.x 335) (.c 0x6f), .adc 128 64 (.c 0) (.x 317) (.x 339), .adc 128 64 (.x 342) (.x 319) (.x 340),
  .adc 128 64 (.x 344) (.x 321) (.c 0), .adc 128 64 (.x 346) (.x 323) (.c 0), .adc 128 64 (.x 348) (.x 325) (.c 0),
  .adc 128 64 (.x 350) (.x 327) (.c 0), .adc 128 64 (.x 352) (.x 329) (.c 0), .adc 128 64 (.x 354) (.x 331) (.x 337),
  .adc 128 64 (.x 356) (.x 333) (.x 338), .set (.add 64 (.x 358) (.x 334)), .mulx 64 (.x 5) (.a 7), .mulx 64 (.x 5) (.a 6),
  .mulx 64 (.x 5) (.a 5), .mulx 64 (.x 5) (.a 4), .mulx 64 (.x 5) (.a 3), .mulx 64 (.x 5) (.a 2), .mulx 64 (.x 5) (.a 1),
  .mulx 64 (.x 5) (.a 0), .adc 128 64 (.c 0) (.x 375) (.x 372), .adc 128 64 (.x 377) (.x 373) (.x 370),
  .adc 128 64 (.x 379) (.x 371) (.x 368), .adc 128 64 (.x 381) (.x 369) (.x 366), .adc 128 64 (.x 383) (.x 367) (.x 364),
  .adc 128 64 (.x 385) (.x 365) (.x 362), .adc 128 64 (.x 387) (.x 363) (.x 360), .set (.add 64 (.x 389) (.x 361)),
  .adc 128 64 (.c 0) (.x 343) (.x 374), .adc 128 64 (.x 392) (.x 345) (.x 376), .adc 128 64 (.x 394) (.x 347) (.x 378),
  .adc 128 64 (.x 396) (.x 349) (.x 380), .adc 128 64 (.x 398) (.x 351) (.x 382), .adc 128 64 (.x 400) (.x 353) (.x 384),
  .adc 128 64 (.x 402) (.x 355) (.x 386), .adc 128 64 (.x 404) (.x 357) (.x 388), .adc 128 64 (.x 406) (.x 359) (.x 390),
  .mulx 64 (.x 391) (.c 0x4e6a171024e6a171), .mulx 64 (.x 409) (.c 0x8000000000000000), .mulx 64 (.x 409) (.c 0x6f),
  .adc 128 64 (.c 0) (.x 391) (.x 413), .adc 128 64 (.x 416) (.x 393) (.x 414), .adc 128 64 (.x 418) (.x 395) (.c 0),
  .adc 128 64 (.x 420) (.x 397) (.c 0), .adc 128 64 (.x 422) (.x 399) (.c 0), .adc 128 64 (.x 424) (.x 401) (.c 0),
  .adc 128 64 (.x 426) (.x 403) (.c 0), .adc 128 64 (.x 428) (.x 405) (.x 411), .adc 128 64 (.x 430) (.x 407) (.x 412),
  .set (.add 64 (.x 432) (.x 408)), .mulx 64 (.x 6) (.a 7), .mulx 64 (.x 6) (.a 6), .mulx 64 (.x 6) (.a 5), .mulx 64 (.x 6) (.a 4),
  .mulx 64 (.x 6) (.a 3), .mulx 64 (.x 6) (.a 2), .mulx 64 (.x 6) (.a 1), .mulx 64 (.x 6) (.a 0), .adc 128 64 (.c 0) (.x 449) (.x 446),
  .adc 128 64 (.x 451) (.x 447) (.x 444), .adc 128 64 (.x 453) (.x 445) (.x 442), .adc 128 64 (.x 455) (.x 443) (.x 440),
  .adc 128 64 (.x 457) (.x 441) (.x 438), .adc 128 64 (.x 459) (.x 439) (.x 436), .adc 128 64 (.x 461) (.x 437) (.x 434),
  .set (.add 64 (.x 463) (.x 435)), .adc 128 64 (.c 0) (.x 417) (.x 448), .adc 128 64 (.x 466) (.x 419) (.x 450),
  .adc 128 64 (.x 468) (.x 421) (.x 452), .adc 128 64 (.x 470) (.x 423) (.x 454), .adc 128 64 (.x 472) (.x 425) (.x 456),
  .adc 128 64 (.x 474) (.x 427) (.x 458), .adc 128 64 (.x 476) (.x 429) (.x 460), .adc 128 64 (.x 478) (.x 431) (.x 462),
  .adc 128 64 (.x 480) (.x 433) (.x 464), .mulx 64 (.x 465) (.c 0x4e6a171024e6a171), .mulx 64 (.x 483) (.c 0x8000000000000000),
  .mulx 64 (.x 483) (.c 0x6f), .adc 128 64 (.c 0) (.x 465) (.x 487), .adc 128 64 (.x 490) (.x 467) (.x 488),
  .adc 128 64 (.x 492) (.x 469) (.c 0), .adc 128 64 (.x 494) (.x 471) (.c 0), .adc 128 64 (.x 496) (.x 473) (.c 0),
  .adc 128 64 (.x 498) (.x 475) (.c 0), .adc 128 64 (.x 500) (.x 477) (.c 0), .adc 128 64 (.x 502) (.x 479) (.x 485),
  .adc 128 64 (.x 504) (.x 481) (.x 486), .set (.add 64 (.x 506) (.x 482)), .mulx 64 (.x 7) (.a 7), .mulx 64 (.x 7) (.a 6),
  .mulx 64 (.x 7) (.a 5), .mulx 64 (.x 7) (.a 4), .mulx 64 (.x 7) (.a 3), .mulx 64 (.x 7) (.a 2), .mulx 64 (.x 7) (.a 1),
  .mulx 64 (.x 7) (.a 0), .adc 128 64 (.c 0) (.x 523) (.x 520), .adc 128 64 (.x 525) (.x 521) (.x 518),
  .adc 128 64 (.x 527) (.x 519) (.x 516), .adc 128 64 (.x 529) (.x 517) (.x 514), .adc 128 64 (.x 531) (.x 515) (.x 512),
  .adc 128 64 (.x 533) (.x 513) (.x 510), .adc 128 64 (.x 535) (.x 511) (.x 508), .set (.add 64 (.x 537) (.x 509)),
  .adc 128 64 (.c 0) (.x 491) (.x 522), .adc 128 64 (.x 540) (.x 493) (.x 524), .adc 128 64 (.x 542) (.x 495) (.x 526),
  .adc 128 64 (.x 544) (.x 497) (.x 528), .adc 128 64 (.x 546) (.x 499) (.x 530), .adc 128 64 (.x 548) (.x 501) (.x 532),
  .adc 128 64 (.x 550) (.x 503) (.x 534), .adc 128 64 (.x 552) (.x 505) (.x 536), .adc 128 64 (.x 554) (.x 507) (.x 538),
  .mulx 64 (.x 539) (.c 0x4e6a171024e6a171), .mulx 64 (.x 557) (.c 0x8000000000000000), .mulx 64 (.x 557) (.c 0x6f),
  .adc 128 64 (.c 0) (.x 539) (.x 561), .adc 128 64 (.x 564) (.x 541) (.x 562), .adc 128 64 (.x 566) (.x 543) (.c 0),
  .adc 128 64 (.x 568) (.x 545) (.c 0), .adc 128 64 (.x 570) (.x 547) (.c 0), .adc 128 64 (.x 572) (.x 549) (.c 0),
  .adc 128 64 (.x 574) (.x 551) (.c 0), .adc 128 64 (.x 576) (.x 553) (.x 559), .adc 128 64 (.x 578) (.x 555) (.x 560),
  .set (.add 64 (.x 580) (.x 556)), .sbb 128 64 (.c 0) (.x 565) (.c 0x6f), .sbb 128 64 (.x 583) (.x 567) (.c 0),
  .sbb 128 64 (.x 585) (.x 569) (.c 0), .sbb 128 64 (.x 587) (.x 571) (.c 0), .sbb 128 64 (.x 589) (.x 573) (.c 0),
  .sbb 128 64 (.x 591) (.x 575) (.c 0), .sbb 128 64 (.x 593) (.x 577) (.c 0), .sbb 128 64 (.x 595) (.x 579) (.c 0x8000000000000000),
  .sbb 128 64 (.x 597) (.x 581) (.c 0), .cmov 64 (.x 599) (.x 582) (.x 565), .cmov 64 (.x 599) (.x 584) (.x 567),
  .cmov 64 (.x 599) (.x 586) (.x 569), .cmov 64 (.x 599) (.x 588) (.x 571), .cmov 64 (.x 599) (.x 590) (.x 573),
  .cmov 64 (.x 599) (.x 592) (.x 575), .cmov 64 (.x 599) (.x 594) (.x 577), .cmov 64 (.x 599) (.x 596) (.x 579)], [600, 601, 602, 603, 604, 605, 606, 607]⟩

/-- `fiat_id_tc26_gost_3410_2012_512_paramSetB_add`, lines 2742-2836. -/
def add : CProg := ⟨[
  .adc 128 64 (.c 0) (.a 0) (.b 0), .adc 128 64 (.x 2) (.a 1) (.b 1), .adc 128 64 (.x 4) (.a 2) (.b 2), .adc 128 64 (.x 6) (.a 3) (.b 3),
  .adc 128 64 (.x 8) (.a 4) (.b 4), .adc 128 64 (.x 10) (.a 5) (.b 5), .adc 128 64 (.x 12) (.a 6) (.b 6), .adc 128 64 (.x 14) (.a 7) (.b 7),
  .sbb 128 64 (.c 0) (.x 1) (.c 0x6f), .sbb 128 64 (.x 18) (.x 3) (.c 0), .sbb 128 64 (.x 20) (.x 5) (.c 0),
  .sbb 128 64 (.x 22) (.x 7) (.c 0), .sbb 128 64 (.x 24) (.x 9) (.c 0), .sbb 128 64 (.x 26) (.x 11) (.c 0),
  .sbb 128 64 (.x 28) (.x 13) (.c 0), .sbb 128 64 (.x 30) (.x 15) (.c 0x8000000000000000), .sbb 128 64 (.x 32) (.x 16) (.c 0),
  .cmov 64 (.x 34) (.x 17) (.x 1), .cmov 64 (.x 34) (.x 19) (.x 3), .cmov 64 (.x 34) (.x 21) (.x 5), .cmov 64 (.x 34) (.x 23) (.x 7),
  .cmov 64 (.x 34) (.x 25) (.x 9), .cmov 64 (.x 34) (.x 27) (.x 11), .cmov 64 (.x 34) (.x 29) (.x 13), .cmov 64 (.x 34) (.x 31) (.x 15)], [35, 36, 37, 38, 39, 40, 41, 42]⟩

/-- `fiat_id_tc26_gost_3410_2012_512_paramSetB_sub`, lines 2853-2930. -/
def sub : CProg := ⟨[
  .sbb 128 64 (.c 0) (.a 0) (.b 0), .sbb 128 64 (.x 2) (.a 1) (.b 1), .sbb 128 64 (.x 4) (.a 2) (.b 2), .sbb 128 64 (.x 6) (.a 3) (.b 3),
  .sbb 128 64 (.x 8) (.a 4) (.b 4), .sbb 128 64 (.x 10) (.a 5) (.b 5), .sbb 128 64 (.x 12) (.a 6) (.b 6), .sbb 128 64 (.x 14) (.a 7) (.b 7),
  .cmov 64 (.x 16) (.c 0) (.c 0xffffffffffffffff), .adc 128 64 (.c 0) (.x 1) (.and (.x 17) (.c 0x6f)), .adc 128 64 (.x 19) (.x 3) (.c 0),
  .adc 128 64 (.x 21) (.x 5) (.c 0), .adc 128 64 (.x 23) (.x 7) (.c 0), .adc 128 64 (.x 25) (.x 9) (.c 0),
  .adc 128 64 (.x 27) (.x 11) (.c 0), .adc 128 64 (.x 29) (.x 13) (.c 0),
  .adc 128 64 (.x 31) (.x 15) (.and (.x 17) (.c 0x8000000000000000))], [18, 20, 22, 24, 26, 28, 30, 32]⟩

/-- `fiat_id_tc26_gost_3410_2012_512_paramSetB_opp`, lines 2945-3022. -/
def opp : CProg := ⟨[
  .sbb 128 64 (.c 0) (.c 0) (.a 0), .sbb 128 64 (.x 2) (.c 0) (.a 1), .sbb 128 64 (.x 4) (.c 0) (.a 2), .sbb 128 64 (.x 6) (.c 0) (.a 3),
  .sbb 128 64 (.x 8) (.c 0) (.a 4), .sbb 128 64 (.x 10) (.c 0) (.a 5), .sbb 128 64 (.x 12) (.c 0) (.a 6), .sbb 128 64 (.x 14) (.c 0) (.a 7),
  .cmov 64 (.x 16) (.c 0) (.c 0xffffffffffffffff), .adc 128 64 (.c 0) (.x 1) (.and (.x 17) (.c 0x6f)), .adc 128 64 (.x 19) (.x 3) (.c 0),
  .adc 128 64 (.x 21) (.x 5) (.c 0), .adc 128 64 (.x 23) (.x 7) (.c 0), .adc 128 64 (.x 25) (.x 9) (.c 0),
  .adc 128 64 (.x 27) (.x 11) (.c 0), .adc 128 64 (.x 29) (.x 13) (.c 0),
  .adc 128 64 (.x 31) (.x 15) (.and (.x 17) (.c 0x8000000000000000))], [18, 20, 22, 24, 26, 28, 30, 32]⟩

/-- `fiat_id_tc26_gost_3410_2012_512_paramSetB_from_montgomery`, lines 3037-3391. -/
def from_montgomery : CProg := ⟨[
  .set (.a 0), .mulx 64 (.x 1) (.c 0x4e6a171024e6a171), .mulx 64 (.x 2) (.c 0x8000000000000000), .mulx 64 (.x 2) (.c 0x6f),
  .adc 128 64 (.c 0) (.x 1) (.x 6), .adc 128 64 (.c 0) (.add 64 (.x 9) (.x 7)) (.a 1), .mulx 64 (.x 10) (.c 0x4e6a171024e6a171),
  .mulx 64 (.x 12) (.c 0x8000000000000000), .mulx 64 (.x 12) (.c 0x6f), .adc 128 64 (.c 0) (.x 5) (.x 14),
  .adc 128 64 (.c 0) (.x 10) (.x 16), .adc 128 64 (.c 0) (.add 64 (.add 64 (.x 21) (.x 11)) (.x 17)) (.a 2),
  .mulx 64 (.x 22) (.c 0x4e6a171024e6a171), .mulx 64 (.x 24) (.c 0x8000000000000000), .mulx 64 (.x 24) (.c 0x6f),
  .adc 128 64 (.c 0) (.add 64 (.x 19) (.x 15)) (.x 26), .adc 128 64 (.c 0) (.x 22) (.x 28),
  .adc 128 64 (.c 0) (.add 64 (.add 64 (.x 33) (.x 23)) (.x 29)) (.a 3), .mulx 64 (.x 34) (.c 0x4e6a171024e6a171),
  .mulx 64 (.x 36) (.c 0x8000000000000000), .mulx 64 (.x 36) (.c 0x6f), .adc 128 64 (.c 0) (.add 64 (.x 31) (.x 27)) (.x 38),
  .adc 128 64 (.c 0) (.x 34) (.x 40), .adc 128 64 (.c 0) (.add 64 (.add 64 (.x 45) (.x 35)) (.x 41)) (.a 4),
  .mulx 64 (.x 46) (.c 0x4e6a171024e6a171), .mulx 64 (.x 48) (.c 0x8000000000000000), .mulx 64 (.x 48) (.c 0x6f),
  .adc 128 64 (.c 0) (.add 64 (.x 43) (.x 39)) (.x 50), .adc 128 64 (.c 0) (.x 46) (.x 52),
  .adc 128 64 (.c 0) (.add 64 (.add 64 (.x 57) (.x 47)) (.x 53)) (.a 5), .mulx 64 (.x 58) (.c 0x4e6a171024e6a171),
  .mulx 64 (.x 60) (.c 0x8000000000000000), .mulx 64 (.x 60) (.c 0x6f), .adc 128 64 (.c 0) (.add 64 (.x 55) (.x 51)) (.x 62),
  .adc 128 64 (.c 0) (.x 58) (.x 64), .adc 128 64 (.c 0) (.add 64 (.add 64 (.x 69) (.x 59)) (.x 65)) (.a 6),
  .adc 128 64 (.x 71) (.x 4) (.c 0), .adc 128 64 (.x 73) (.x 18) (.c 0), .adc 128 64 (.x 75) (.x 30) (.c 0),
  .adc 128 64 (.x 77) (.x 42) (.c 0), .adc 128 64 (.x 79) (.x 54) (.c 0), .adc 128 64 (.x 81) (.x 66) (.c 0),
  .mulx 64 (.x 70) (.c 0x4e6a171024e6a171), .mulx 64 (.x 84) (.c 0x8000000000000000), .mulx 64 (.x 84) (.c 0x6f),
  .adc 128 64 (.c 0) (.x 70) (.x 88), .adc 128 64 (.x 91) (.x 72) (.x 89), .adc 128 64 (.x 93) (.x 74) (.c 0),
  .adc 128 64 (.x 95) (.x 76) (.c 0), .adc 128 64 (.x 97) (.x 78) (.c 0), .adc 128 64 (.x 99) (.x 80) (.c 0),
  .adc 128 64 (.x 101) (.x 82) (.c 0), .adc 128 64 (.x 103) (.add 64 (.x 83) (.add 64 (.x 67) (.x 63))) (.x 86),
  .adc 128 64 (.c 0) (.x 92) (.a 7), .adc 128 64 (.x 107) (.x 94) (.c 0), .adc 128 64 (.x 109) (.x 96) (.c 0),
  .adc 128 64 (.x 111) (.x 98) (.c 0), .adc 128 64 (.x 113) (.x 100) (.c 0), .adc 128 64 (.x 115) (.x 102) (.c 0),
  .adc 128 64 (.x 117) (.x 104) (.c 0), .mulx 64 (.x 106) (.c 0x4e6a171024e6a171), .mulx 64 (.x 120) (.c 0x8000000000000000),
  .mulx 64 (.x 120) (.c 0x6f), .adc 128 64 (.c 0) (.x 106) (.x 124), .adc 128 64 (.x 127) (.x 108) (.x 125),
  .adc 128 64 (.x 129) (.x 110) (.c 0), .adc 128 64 (.x 131) (.x 112) (.c 0), .adc 128 64 (.x 133) (.x 114) (.c 0),
  .adc 128 64 (.x 135) (.x 116) (.c 0), .adc 128 64 (.x 137) (.x 118) (.c 0),
  .adc 128 64 (.x 139) (.add 64 (.x 119) (.add 64 (.x 105) (.x 87))) (.x 122), .set (.add 64 (.x 141) (.x 123)),
  .sbb 128 64 (.c 0) (.x 128) (.c 0x6f), .sbb 128 64 (.x 144) (.x 130) (.c 0), .sbb 128 64 (.x 146) (.x 132) (.c 0),
  .sbb 128 64 (.x 148) (.x 134) (.c 0), .sbb 128 64 (.x 150) (.x 136) (.c 0), .sbb 128 64 (.x 152) (.x 138) (.c 0),
  .sbb 128 64 (.x 154) (.x 140) (.c 0), .sbb 128 64 (.x 156) (.x 142) (.c 0x8000000000000000), .sbb 128 64 (.x 158) (.c 0) (.c 0),
  .cmov 64 (.x 160) (.x 143) (.x 128), .cmov 64 (.x 160) (.x 145) (.x 130), .cmov 64 (.x 160) (.x 147) (.x 132),
  .cmov 64 (.x 160) (.x 149) (.x 134), .cmov 64 (.x 160) (.x 151) (.x 136), .cmov 64 (.x 160) (.x 153) (.x 138),
  .cmov 64 (.x 160) (.x 155) (.x 140), .cmov 64 (.x 160) (.x 157) (.x 142)], [161, 162, 163, 164, 165, 166, 167, 168]⟩

/-- `fiat_id_tc26_gost_3410_2012_512_paramSetB_to_montgomery`, lines 3406-3790. -/
def to_montgomery : CProg := ⟨[
  .mulx 64 (.a 0) (.c 0xc084), .mulx 64 (.x 1) (.c 0x4e6a171024e6a171), .mulx 64 (.x 3) (.c 0x8000000000000000), .mulx 64 (.x 3) (.c 0x6f),
  .mulx 64 (.a 1) (.c 0xc084), .adc 128 64 (.c 0) (.x 1) (.x 7), .adc 128 64 (.c 0) (.add 64 (.add 64 (.x 12) (.x 2)) (.x 8)) (.x 9),
  .mulx 64 (.x 13) (.c 0x4e6a171024e6a171), .mulx 64 (.x 15) (.c 0x8000000000000000), .mulx 64 (.x 15) (.c 0x6f),
  .adc 128 64 (.c 0) (.x 6) (.x 17), .mulx 64 (.a 2) (.c 0xc084), .adc 128 64 (.c 0) (.x 13) (.x 19),
  .adc 128 64 (.c 0) (.add 64 (.add 64 (.x 26) (.add 64 (.x 14) (.x 10))) (.x 20)) (.x 23), .mulx 64 (.x 27) (.c 0x4e6a171024e6a171),
  .mulx 64 (.x 29) (.c 0x8000000000000000), .mulx 64 (.x 29) (.c 0x6f), .adc 128 64 (.c 0) (.add 64 (.x 22) (.x 18)) (.x 31),
  .mulx 64 (.a 3) (.c 0xc084), .adc 128 64 (.c 0) (.x 27) (.x 33),
  .adc 128 64 (.c 0) (.add 64 (.add 64 (.x 40) (.add 64 (.x 28) (.x 24))) (.x 34)) (.x 37), .mulx 64 (.x 41) (.c 0x4e6a171024e6a171),
  .mulx 64 (.x 43) (.c 0x8000000000000000), .mulx 64 (.x 43) (.c 0x6f), .adc 128 64 (.c 0) (.add 64 (.x 36) (.x 32)) (.x 45),
  .mulx 64 (.a 4) (.c 0xc084), .adc 128 64 (.c 0) (.x 41) (.x 47),
  .adc 128 64 (.c 0) (.add 64 (.add 64 (.x 54) (.add 64 (.x 42) (.x 38))) (.x 48)) (.x 51), .mulx 64 (.x 55) (.c 0x4e6a171024e6a171),
  .mulx 64 (.x 57) (.c 0x8000000000000000), .mulx 64 (.x 57) (.c 0x6f), .adc 128 64 (.c 0) (.add 64 (.x 50) (.x 46)) (.x 59),
  .mulx 64 (.a 5) (.c 0xc084), .adc 128 64 (.c 0) (.x 55) (.x 61),
  .adc 128 64 (.c 0) (.add 64 (.add 64 (.x 68) (.add 64 (.x 56) (.x 52))) (.x 62)) (.x 65), .mulx 64 (.x 69) (.c 0x4e6a171024e6a171),
  .mulx 64 (.x 71) (.c 0x8000000000000000), .mulx 64 (.x 71) (.c 0x6f), .adc 128 64 (.c 0) (.add 64 (.x 64) (.x 60)) (.x 73),
  .mulx 64 (.a 6) (.c 0xc084), .adc 128 64 (.c 0) (.x 69) (.x 75),
  .adc 128 64 (.c 0) (.add 64 (.add 64 (.x 82) (.add 64 (.x 70) (.x 66))) (.x 76)) (.x 79), .adc 128 64 (.x 84) (.x 5) (.x 80),
  .adc 128 64 (.x 86) (.x 21) (.c 0), .adc 128 64 (.x 88) (.x 35) (.c 0), .adc 128 64 (.x 90) (.x 49) (.c 0),
  .adc 128 64 (.x 92) (.x 63) (.c 0), .adc 128 64 (.x 94) (.x 77) (.c 0), .mulx 64 (.x 83) (.c 0x4e6a171024e6a171),
  .mulx 64 (.x 97) (.c 0x8000000000000000), .mulx 64 (.x 97) (.c 0x6f), .adc 128 64 (.c 0) (.x 83) (.x 101),
  .adc 128 64 (.x 104) (.x 85) (.x 102), .adc 128 64 (.x 106) (.x 87) (.c 0), .adc 128 64 (.x 108) (.x 89) (.c 0),
  .adc 128 64 (.x 110) (.x 91) (.c 0), .adc 128 64 (.x 112) (.x 93) (.c 0), .adc 128 64 (.x 114) (.x 95) (.c 0),
  .adc 128 64 (.x 116) (.add 64 (.x 96) (.add 64 (.x 78) (.x 74))) (.x 99), .mulx 64 (.a 7) (.c 0xc084),
  .adc 128 64 (.c 0) (.x 105) (.x 119), .adc 128 64 (.x 122) (.x 107) (.x 120), .adc 128 64 (.x 124) (.x 109) (.c 0),
  .adc 128 64 (.x 126) (.x 111) (.c 0), .adc 128 64 (.x 128) (.x 113) (.c 0), .adc 128 64 (.x 130) (.x 115) (.c 0),
  .adc 128 64 (.x 132) (.x 117) (.c 0), .mulx 64 (.x 121) (.c 0x4e6a171024e6a171), .mulx 64 (.x 135) (.c 0x8000000000000000),
  .mulx 64 (.x 135) (.c 0x6f), .adc 128 64 (.c 0) (.x 121) (.x 139), .adc 128 64 (.x 142) (.x 123) (.x 140),
  .adc 128 64 (.x 144) (.x 125) (.c 0), .adc 128 64 (.x 146) (.x 127) (.c 0), .adc 128 64 (.x 148) (.x 129) (.c 0),
  .adc 128 64 (.x 150) (.x 131) (.c 0), .adc 128 64 (.x 152) (.x 133) (.c 0),
  .adc 128 64 (.x 154) (.add 64 (.x 134) (.add 64 (.x 118) (.x 100))) (.x 137), .set (.add 64 (.x 156) (.x 138)),
  .sbb 128 64 (.c 0) (.x 143) (.c 0x6f), .sbb 128 64 (.x 159) (.x 145) (.c 0), .sbb 128 64 (.x 161) (.x 147) (.c 0),
  .sbb 128 64 (.x 163) (.x 149) (.c 0), .sbb 128 64 (.x 165) (.x 151) (.c 0), .sbb 128 64 (.x 167) (.x 153) (.c 0),
  .sbb 128 64 (.x 169) (.x 155) (.c 0), .sbb 128 64 (.x 171) (.x 157) (.c 0x8000000000000000), .sbb 128 64 (.x 173) (.c 0) (.c 0),
  .cmov 64 (.x 175) (.x 158) (.x 143), .cmov 64 (.x 175) (.x 160) (.x 145), .cmov 64 (.x 175) (.x 162) (.x 147),
  .cmov 64 (.x 175) (.x 164) (.x 149), .cmov 64 (.x 175) (.x 166) (.x 151), .cmov 64 (.x 175) (.x 168) (.x 153),
  .cmov 64 (.x 175) (.x 170) (.x 155), .cmov 64 (.x 175) (.x 172) (.x 157)], [176, 177, 178, 179, 180, 181, 182, 183]⟩

/-- `fiat_id_tc26_gost_3410_2012_512_paramSetB_from_bytes`, lines 4197-4447. -/
def from_bytes : CProg := ⟨[
  .set (.shl 64 (.a 63) 56), .set (.shl 64 (.a 62) 48), .set (.shl 64 (.a 61) 40), .set (.shl 64 (.a 60) 32), .set (.shl 64 (.a 59) 24),
  .set (.shl 64 (.a 58) 16), .set (.shl 64 (.a 57) 8), .set (.a 56), .set (.shl 64 (.a 55) 56), .set (.shl 64 (.a 54) 48),
  .set (.shl 64 (.a 53) 40), .set (.shl 64 (.a 52) 32), .set (.shl 64 (.a 51) 24), .set (.shl 64 (.a 50) 16), .set (.shl 64 (.a 49) 8),
  .set (.a 48), .set (.shl 64 (.a 47) 56), .set (.shl 64 (.a 46) 48), .set (.shl 64 (.a 45) 40), .set (.shl 64 (.a 44) 32),
  .set (.shl 64 (.a 43) 24), .set (.shl 64 (.a 42) 16), .set (.shl 64 (.a 41) 8), .set (.a 40), .set (.shl 64 (.a 39) 56),
  .set (.shl 64 (.a 38) 48), .set (.shl 64 (.a 37) 40), .set (.shl 64 (.a 36) 32), .set (.shl 64 (.a 35) 24), .set (.shl 64 (.a 34) 16),
  .set (.shl 64 (.a 33) 8), .set (.a 32), .set (.shl 64 (.a 31) 56), .set (.shl 64 (.a 30) 48), .set (.shl 64 (.a 29) 40),
  .set (.shl 64 (.a 28) 32), .set (.shl 64 (.a 27) 24), .set (.shl 64 (.a 26) 16), .set (.shl 64 (.a 25) 8), .set (.a 24),
  .set (.shl 64 (.a 23) 56), .set (.shl 64 (.a 22) 48), .set (.shl 64 (.a 21) 40), .set (.shl 64 (.a 20) 32), .set (.shl 64 (.a 19) 24),
  .set (.shl 64 (.a 18) 16), .set (.shl 64 (.a 17) 8), .set (.a 16), .set (.shl 64 (.a 15) 56), .set (.shl 64 (.a 14) 48),
  .set (.shl 64 (.a 13) 40), .set (.shl 64 (.a 12) 32), .set (.shl 64 (.a 11) 24), .set (.shl 64 (.a 10) 16), .set (.shl 64 (.a 9) 8),
  .set (.a 8), .set (.shl 64 (.a 7) 56), .set (.shl 64 (.a 6) 48), .set (.shl 64 (.a 5) 40), .set (.shl 64 (.a 4) 32),
  .set (.shl 64 (.a 3) 24), .set (.shl 64 (.a 2) 16), .set (.shl 64 (.a 1) 8), .set (.a 0), .set (.add 64 (.x 63) (.x 64)),
  .set (.add 64 (.x 62) (.x 65)), .set (.add 64 (.x 61) (.x 66)), .set (.add 64 (.x 60) (.x 67)), .set (.add 64 (.x 59) (.x 68)),
  .set (.add 64 (.x 58) (.x 69)), .set (.add 64 (.x 57) (.x 70)), .set (.add 64 (.x 55) (.x 56)), .set (.add 64 (.x 54) (.x 72)),
  .set (.add 64 (.x 53) (.x 73)), .set (.add 64 (.x 52) (.x 74)), .set (.add 64 (.x 51) (.x 75)), .set (.add 64 (.x 50) (.x 76)),
  .set (.add 64 (.x 49) (.x 77)), .set (.add 64 (.x 47) (.x 48)), .set (.add 64 (.x 46) (.x 79)), .set (.add 64 (.x 45) (.x 80)),
  .set (.add 64 (.x 44) (.x 81)), .set (.add 64 (.x 43) (.x 82)), .set (.add 64 (.x 42) (.x 83)), .set (.add 64 (.x 41) (.x 84)),
  .set (.add 64 (.x 39) (.x 40)), .set (.add 64 (.x 38) (.x 86)), .set (.add 64 (.x 37) (.x 87)), .set (.add 64 (.x 36) (.x 88)),
  .set (.add 64 (.x 35) (.x 89)), .set (.add 64 (.x 34) (.x 90)), .set (.add 64 (.x 33) (.x 91)), .set (.add 64 (.x 31) (.x 32)),
  .set (.add 64 (.x 30) (.x 93)), .set (.add 64 (.x 29) (.x 94)), .set (.add 64 (.x 28) (.x 95)), .set (.add 64 (.x 27) (.x 96)),
  .set (.add 64 (.x 26) (.x 97)), .set (.add 64 (.x 25) (.x 98)), .set (.add 64 (.x 23) (.x 24)), .set (.add 64 (.x 22) (.x 100)),
  .set (.add 64 (.x 21) (.x 101)), .set (.add 64 (.x 20) (.x 102)), .set (.add 64 (.x 19) (.x 103)), .set (.add 64 (.x 18) (.x 104)),
  .set (.add 64 (.x 17) (.x 105)), .set (.add 64 (.x 15) (.x 16)), .set (.add 64 (.x 14) (.x 107)), .set (.add 64 (.x 13) (.x 108)),
  .set (.add 64 (.x 12) (.x 109)), .set (.add 64 (.x 11) (.x 110)), .set (.add 64 (.x 10) (.x 111)), .set (.add 64 (.x 9) (.x 112)),
  .set (.add 64 (.x 7) (.x 8)), .set (.add 64 (.x 6) (.x 114)), .set (.add 64 (.x 5) (.x 115)), .set (.add 64 (.x 4) (.x 116)),
  .set (.add 64 (.x 3) (.x 117)), .set (.add 64 (.x 2) (.x 118)), .set (.add 64 (.x 1) (.x 119))], [71, 78, 85, 92, 99, 106, 113, 120]⟩

/-- `fiat_id_tc26_gost_3410_2012_512_paramSetB_to_bytes`, lines 3876-4182. -/
def to_bytes : CProg := ⟨[
  .set (.a 7), .set (.a 6), .set (.a 5), .set (.a 4), .set (.a 3), .set (.a 2), .set (.a 1), .set (.a 0),
  .set (.cast 8 (.and (.x 8) (.c 0xff))), .set (.shr (.x 8) 8), .set (.cast 8 (.and (.x 10) (.c 0xff))), .set (.shr (.x 10) 8),
  .set (.cast 8 (.and (.x 12) (.c 0xff))), .set (.shr (.x 12) 8), .set (.cast 8 (.and (.x 14) (.c 0xff))), .set (.shr (.x 14) 8),
  .set (.cast 8 (.and (.x 16) (.c 0xff))), .set (.shr (.x 16) 8), .set (.cast 8 (.and (.x 18) (.c 0xff))), .set (.shr (.x 18) 8),
  .set (.cast 8 (.and (.x 20) (.c 0xff))), .set (.cast 8 (.shr (.x 20) 8)), .set (.cast 8 (.and (.x 7) (.c 0xff))), .set (.shr (.x 7) 8),
  .set (.cast 8 (.and (.x 24) (.c 0xff))), .set (.shr (.x 24) 8), .set (.cast 8 (.and (.x 26) (.c 0xff))), .set (.shr (.x 26) 8),
  .set (.cast 8 (.and (.x 28) (.c 0xff))), .set (.shr (.x 28) 8), .set (.cast 8 (.and (.x 30) (.c 0xff))), .set (.shr (.x 30) 8),
  .set (.cast 8 (.and (.x 32) (.c 0xff))), .set (.shr (.x 32) 8), .set (.cast 8 (.and (.x 34) (.c 0xff))), .set (.cast 8 (.shr (.x 34) 8)),
  .set (.cast 8 (.and (.x 6) (.c 0xff))), .set (.shr (.x 6) 8), .set (.cast 8 (.and (.x 38) (.c 0xff))), .set (.shr (.x 38) 8),
  .set (.cast 8 (.and (.x 40) (.c 0xff))), .set (.shr (.x 40) 8), .set (.cast 8 (.and (.x 42) (.c 0xff))), .set (.shr (.x 42) 8),
  .set (.cast 8 (.and (.x 44) (.c 0xff))), .set (.shr (.x 44) 8), .set (.cast 8 (.and (.x 46) (.c 0xff))), .set (.shr (.x 46) 8),
  .set (.cast 8 (.and (.x 48) (.c 0xff))), .set (.cast 8 (.shr (.x 48) 8)), .set (.cast 8 (.and (.x 5) (.c 0xff))), .set (.shr (.x 5) 8),
  .set (.cast 8 (.and (.x 52) (.c 0xff))), .set (.shr (.x 52) 8), .set (.cast 8 (.and (.x 54) (.c 0xff))), .set (.shr (.x 54) 8),
  .set (.cast 8 (.and (.x 56) (.c 0xff))), .set (.shr (.x 56) 8), .set (.cast 8 (.and (.x 58) (.c 0xff))), .set (.shr (.x 58) 8),
  .set (.cast 8 (.and (.x 60) (.c 0xff))), .set (.shr (.x 60) 8), .set (.cast 8 (.and (.x 62) (.c 0xff))), .set (.cast 8 (.shr (.x 62) 8)),
  .set (.cast 8 (.and (.x 4) (.c 0xff))), .set (.shr (.x 4) 8), .set (.cast 8 (.and (.x 66) (.c 0xff))), .set (.shr (.x 66) 8),
  .set (.cast 8 (.and (.x 68) (.c 0xff))), .set (.shr (.x 68) 8), .set (.cast 8 (.and (.x 70) (.c 0xff))), .set (.shr (.x 70) 8),
  .set (.cast 8 (.and (.x 72) (.c 0xff))), .set (.shr (.x 72) 8), .set (.cast 8 (.and (.x 74) (.c 0xff))), .set (.shr (.x 74) 8),
  .set (.cast 8 (.and (.x 76) (.c 0xff))), .set (.cast 8 (.shr (.x 76) 8)), .set (.cast 8 (.and (.x 3) (.c 0xff))), .set (.shr (.x 3) 8),
  .set (.cast 8 (.and (.x 80) (.c 0xff))), .set (.shr (.x 80) 8), .set (.cast 8 (.and (.x 82) (.c 0xff))), .set (.shr (.x 82) 8),
  .set (.cast 8 (.and (.x 84) (.c 0xff))), .set (.shr (.x 84) 8), .set (.cast 8 (.and (.x 86) (.c 0xff))), .set (.shr (.x 86) 8),
  .set (.cast 8 (.and (.x 88) (.c 0xff))), .set (.shr (.x 88) 8), .set (.cast 8 (.and (.x 90) (.c 0xff))), .set (.cast 8 (.shr (.x 90) 8)),
  .set (.cast 8 (.and (.x 2) (.c 0xff))), .set (.shr (.x 2) 8), .set (.cast 8 (.and (.x 94) (.c 0xff))), .set (.shr (.x 94) 8),
  .set (.cast 8 (.and (.x 96) (.c 0xff))), .set (.shr (.x 96) 8), .set (.cast 8 (.and (.x 98) (.c 0xff))), .set (.shr (.x 98) 8),
  .set (.cast 8 (.and (.x 100) (.c 0xff))), .set (.shr (.x 100) 8), .set (.cast 8 (.and (.x 102) (.c 0xff))), .set (.shr (.x 102) 8),
  .set (.cast 8 (.and (.x 104) (.c 0xff))), .set (.cast 8 (.shr (.x 104) 8)), .set (.cast 8 (.and (.x 1) (.c 0xff))), .set (.shr (.x 1) 8),
  .set (.cast 8 (.and (.x 108) (.c 0xff))), .set (.shr (.x 108) 8), .set (.cast 8 (.and (.x 110) (.c 0xff))), .set (.shr (.x 110) 8),
  .set (.cast 8 (.and (.x 112) (.c 0xff))), .set (.shr (.x 112) 8), .set (.cast 8 (.and (.x 114) (.c 0xff))), .set (.shr (.x 114) 8),
  .set (.cast 8 (.and (.x 116) (.c 0xff))), .set (.shr (.x 116) 8), .set (.cast 8 (.and (.x 118) (.c 0xff))),
  .set (.cast 8 (.shr (.x 118) 8))], [9, 11, 13, 15, 17, 19, 21, 22, 23, 25, 27, 29, 31, 33, 35, 36, 37, 39, 41, 43, 45, 47, 49, 50, 51, 53, 55, 57, 59, 61, 63, 64, 65, 67, 69, 71, 73, 75, 77, 78, 79, 81, 83, 85, 87, 89, 91, 92, 93, 95, 97, 99, 101, 103, 105, 106, 107, 109, 111, 113, 115, 117, 119, 120]⟩

/-- `fiat_id_tc26_gost_3410_2012_512_paramSetB_inv`, lines 4457-4475; the variables are 0 = t1, 0 = output, 1 = acc, 2 = t3, 3 = t13; a loop of multiplications is written out. -/
def inv : List InvStep := [.sq 1 0 1, .mul 2 0 1, .mul 3 2 1, .mul 3 3 1, .mul 3 3 1, .mul 3 3 1, .mul 3 3 1, .sq 1 0 1, .sq 1 1 505, .mul 1 1 2,
  .sq 1 1 5, .mul 0 1 3]

/-- The constants, lines: `const_one` 4479-4483, `const_b` 4485-4489; the file has no others. -/
def consts : FiatConsts where
  one := [0xffffffffffffff91, 0xffffffffffffffff, 0xffffffffffffffff, 0xffffffffffffffff, 0xffffffffffffffff, 0xffffffffffffffff, 0xffffffffffffffff, 0x7fffffffffffffff]
  a := [0, 0, 0, 0, 0, 0, 0, 0]
  b := [0xdbe748c318a75dd6, 0xc954a7809097bfc1, 0x6553cd27e2d5a471, 0xb99b326049435cf3, 0xe9eac8a216d2c5e7, 0x260b45a102d0cc51, 0x8636181d6c5bd56d, 0x638259a12c5765bc]
  b3 := [0, 0, 0, 0, 0, 0, 0, 0]
  d := [0, 0, 0, 0, 0, 0, 0, 0]
  S := [0, 0, 0, 0, 0, 0, 0, 0]
  T := [0, 0, 0, 0, 0, 0, 0, 0]

/-- The functions of the file. -/
def file : FiatMont where
  mul := mul
  square := square
  add := add
  sub := sub
  opp := opp
  from_montgomery := from_montgomery
  to_montgomery := to_montgomery
  from_bytes := from_bytes
  to_bytes := to_bytes
  inv := inv
  limbs := 8
  consts := consts

/-- `lut_cmb`, lines 4492-6312. -/
def lut_data : List (List (AffW (List Nat))) := [
  [⟨[0xfffffffffffffeb3, 0xffffffffffffffff, 0xffffffffffffffff, 0xffffffffffffffff, 0xffffffffffffffff, 0xffffffffffffffff, 0xffffffffffffffff, 0x7fffffffffffffff], [0x9f34e17e2383127b, 0x4c79d571cf48ceea, 0xa33463bc494e1bed, 0x9d80747f3a5da27f, 0xdcbd09ddc2f4174a, 0xe8307a8c2147b2e0, 0xd1d3cceddbcf9ac9, 0x778ffec2e98deff1]⟩,
   ⟨[0xce514e6bb67da584, 0xeb51443be19c2094, 0xc8e8f54b9b071a6e, 0x239c53fdbed2a243, 0x67d47b7b2ae8e157, 0x46de3b75550826e, 0x2f7dd21e17723575, 0xe6eabdd11e8e247], [0xf204f0d648600734, 0x4b3054c343d6475, 0x707bd9d8f7e6d181, 0x535cec326b353e20, 0xa185fa95108c5fe7, 0x7033ebfab573367f, 0xec54e36b46552d77, 0x235e6c1a729c9eba]⟩,
   ⟨[0xecdcee638b28c0dc, 0xd4e35b4036ae99a1, 0xdacc813d464a3d2f, 0x8d92802adbaf282e, 0x652cff9c7d8757f2, 0x2c1bcbd97f5a8471, 0x10192e216c3679a, 0x562694967529db85], [0x7480bb90d5f89b94, 0xe01fe3d81e46ede6, 0xc18431634e57e6f5, 0x5f8c688491c2df63, 0x42e01ed65fa2dc4d, 0x629c95cd8ff5a769, 0xe8c16376eab4807, 0x1c41fb660abd9bb6]⟩,
   ⟨[0x6b509b4f6ed32e5f, 0xc62afb2567c95f17, 0x352d4b7a5ce4762a, 0x331358159afa6acc, 0x168b565406d550b2, 0x254dcce0b528df40, 0x422adb9a222c9415, 0x6fc0f2ce3d2f923e], [0x3cc0872359359ce7, 0x1779c0cd91a4dc50, 0x1205971ec8b9922d, 0x199f8198c13192a7, 0xa43fbdbf492db7aa, 0x9e173427e82beec8, 0x1e9014993850d54e, 0x603774b7f761ec57]⟩,
   ⟨[0x23b79c802bdef3a9, 0x2217119ad19a5f2c, 0x49194ce156b09a50, 0xee7d88a221329201, 0x1c45a959d0bbed28, 0x1ba5dad5780fa0d1, 0x17d7c7946959608d, 0x7da394237e4e9b1f], [0x435f5c5547508ca7, 0x84583489516ad549, 0x9ddc49d02bae814, 0xcd566b6e260b4d97, 0x8c11211ee38df931, 0x7d5fc8d005d473f8, 0x48c9d7cd865c76f2, 0x2d4517372a6d5599]⟩,
   ⟨[0x5f8b137b29c4eacd, 0x5cb8477c99075883, 0xbc6736a750a641c4, 0xf96b6d0e81b0881d, 0x8e9c2612e561fc8f, 0x8f742744284e20b7, 0xbc8c5be7d4dd11ee, 0x414709e782b2ef56], [0xe4d6bc0a6df555f2, 0x916e0a8038ee529f, 0xbbe312733414117e, 0x2d7bf9cd3154234a, 0x79b9cfa91852e8ee, 0x62653e8c1bd9c07a, 0x35fe04f67c7aff7e, 0x746c1e87e70ae283]⟩,
   ⟨[0x1f5857a198366ba5, 0x96781d84414decad, 0xb39dd88866cf983e, 0xde1050accac19b5f, 0x5a58bfa88b2aa408, 0xa0a6e9613c440ded, 0xbaaec3dfc67d0412, 0xe37c0e06759674e], [0x1e623e7563880d22, 0x3be27cf8f0acb4b6, 0x5e6abd4f4f69642e, 0x3e92d34d13cada08, 0x56c644290127c48b, 0x620fc35b7f3c5746, 0x6870f3deef94c612, 0x219c5a5a2606f4a4]⟩,
   ⟨[0xad4acaa1625fe00, 0xd7dee6bb9bee03ff, 0x72a27d3b2e594a2c, 0x471efd78aab1c0e5, 0xbde8465e37857650, 0x1ca721c2bd9f5885, 0x361e6f8a6073dcef, 0x2ba435e30a7cf8e9], [0xc7b032bd1c6893fa, 0xfa9c30e809d4e403, 0xb03af5bd20293a47, 0x21ebc61be008f02d, 0xa50151d73d59e63, 0x18d1a3f678d260db, 0xe8e3c3f47d79ba96, 0x51faed3775a06f31]⟩,
   ⟨[0xecd4b979e8bcbc8b, 0x7529023cf803878f, 0xad84e1849a8b8850, 0xf1e004f8ccf88146, 0x27406240c194f3f5, 0x175ab72fe366d6b0, 0x1a44bc8513bbcc48, 0x7930f86912f138c6], [0x1943a86518e4dcd0, 0x747f6c7cbce9f068, 0x5a306f6454d067f7, 0xd1a8ef54edb2062a, 0x60e6acaea42f21b3, 0x9218654f3b2d2c26, 0xede14471e8b2778e, 0x7b868d318cee6931]⟩,
   ⟨[0x957a4f6b368ff42, 0xf9f134fd004c85fc, 0x3a6b8a4719017e1d, 0x673a45ea7d50a61e, 0x4a26da494e18ee86, 0xaf7dd8fddf0c17a6, 0xd24bf75a7e7277c3, 0x5ef832a1bf72613c], [0x2e9c8e083300ee10, 0xcca04c068763ab4e, 0x5f8dbc28a6b7d854, 0xc6cd3de84025c222, 0xefd30cc10dfe44a5, 0xc2cd44421d7be70f, 0x6f8d46b45cced5d, 0x2d74d0d62ef0c653]⟩,
   ⟨[0x151b24dfb26e78b9, 0xc57e81560bb1ed51, 0x57baada59c13974b, 0x98336fb820cc5af3, 0x1da5bd290c790e28, 0x877aa9358c6e2539, 0x1673f15109aee9d2, 0x519fb4ee0aee66d8], [0x2b798f206aa8d898, 0xc3dfb5ecba86008c, 0xf780333b343a8cbf, 0xff22f62ab6d2056e, 0x97f3006e182ef2a6, 0x3c5adb493064ac5e, 0x89c8c032c9d64c70, 0x1a9abded243db254]⟩,
   ⟨[0xa84b636211a375bf, 0x598270a6620a2252, 0xb183ec9d13a0eff8, 0x2f7bebd4b755ad35, 0xeba848edc53efd69, 0x12059a246faec1b6, 0xba6340a47a290d7b, 0x2284943263df6036], [0x4702bcb62aa27f19, 0x8dde49209b6d66d6, 0xc3d4a80bbdc2dc5d, 0xe51ac2d6691a8bd4, 0x794853518f4211fc, 0x163cd093a9d14c71, 0x4b38a2b189a0e099, 0x166732459e98054e]⟩,
   ⟨[0xfb44107131fbb6b8, 0x79a8775c42ad947a, 0xa8c9e486e72d0384, 0x9af7f292840a1ddb, 0x7e9db522db1b47d, 0x698669aba81ebad, 0xa48e2f032dc06b76, 0x1b06024879b9161a], [0xd47bade113c53a83, 0x9c1f4dd068727195, 0x14a2fc601293376b, 0x8a63967edc206930, 0x5d9dfe3898e46f8b, 0x9199e19385cf7b41, 0x3e8df54d113d1605, 0x14d3c202303789e1]⟩,
   ⟨[0x11a727d4626710eb, 0x38481ec13eb613f1, 0xb824f8315625e925, 0x3fefe4f7d03d016b, 0xce196037bf1fe74c, 0xe5518f38e956e95f, 0x84e24d4523e1ae46, 0x29d1db5a3e0f63a1], [0x380bf7874fae4f08, 0xb4e5d477ed8b6a7c, 0xaba43c3adc035a0d, 0x7b88050825134a5c, 0x2db4554865d5a8cf, 0x776b78b67ede5f4d, 0x4cb5848179297e21, 0x1e1911058be6dbd4]⟩,
   ⟨[0x4d1054373e98c38e, 0xae4b330cb2e8be84, 0xb1a22a3de16ca9cd, 0xe78b43cb1daf0b8d, 0x509d9c345cb2b278, 0x9a1342b329f9fffd, 0x8159f45273a20a3f, 0x35043a47ca064dad], [0xe000710e040e7978, 0x2a1da585faf394bb, 0xf9423ee651524252, 0xd95ce5ef181acf8b, 0x97a9b5613b5947, 0x6f088d14ab442cd0, 0x4e225baccae96a8e, 0x753b77b9ee82591b]⟩,
   ⟨[0x41d5feec43969a20, 0xc7e1dfa25b57402c, 0xc43bffdd9c098c51, 0xac5e73942954a8f5, 0xd420a646b2e1308e, 0x13476158d7cae952, 0x6a48fa12e7b188c1, 0x1cf2de71ec53c308], [0xaa44cf54653fb0fe, 0x4e05a63d450317f4, 0x8b59baa6e3aa21da, 0xfa3a1cda11f7840d, 0x220f39b639db678d, 0x6d497e96759cdca0, 0xadf3f2969fa5114, 0x7836181d15349213]⟩],
  [⟨[0x1f11e63c5d6f9b3e, 0x4569a6daa403a073, 0x1b585729fe26a8bd, 0x2185b4e45f41faa7, 0x3887350c6e99e6e1, 0x92f63ca599cffb22, 0x94e93270a52f6381, 0x489ee2dfd0a380fc], [0x45f7836ab988d87d, 0xa44dca0c337befa3, 0x6f42243655657370, 0xe5299b33c16d6547, 0x74a82b2f1e5aab47, 0x795a79b9cfa92cdb, 0x2ee0f1be4981a557, 0x3f7a2ac5f5637def]⟩,
   ⟨[0x78cf079d3a0fea31, 0xf5a54c8c6f9069b7, 0x24c79868d8c02f14, 0x43ddb340f36b384f, 0x8af55e5ead874f73, 0x29e81aca5856db97, 0xb23d0e00702df822, 0x58ef4f993d029f4b], [0xb28fa62f26ca389, 0xd3288224ecff83df, 0x5d8f23193fd82eb2, 0x68e3d3c53d1cb29f, 0x8df1a753ec26be41, 0xb2074622c2c7412f, 0x3a8d35048d5018f7, 0xb0d2d49fd309f9b]⟩,
   ⟨[0xe997dd069319d09a, 0xf8a2189fda1726db, 0x3ad35868266e7222, 0x116610c0f42e1a2, 0xf23385ace93cc223, 0xe06de4f68d221503, 0xc963ef8a36ee6d9, 0x13b707c8c297bb1a], [0x1067542415b7bef0, 0x9c064518ab4ecc7e, 0x324cdf0c83247132, 0xa9a416204ce15206, 0x641c526f0ec82b3, 0xd952d947f165b832, 0xf6e4ef5b56c3bc3c, 0x528479a6ef1f3728]⟩,
   ⟨[0xf84be5dca64a2c9b, 0xc20ad405b92b2a9d, 0xc965a45a829ba060, 0x5041e47fd9f58abf, 0x360fb8e29e6aeb4e, 0xdc3b93deb995ddb3, 0x7fb0501ffa2c89e5, 0x1883f0179c9b058f], [0x9fc09649abf2eabc, 0x51f9aa2d2adfbbe, 0xb4689f2471b9c, 0x2c21c96a23db9e67, 0x840f2a03d9d7c226, 0xe728b0702e660925, 0x1ed21d55a8258042, 0x20de972e8da89f47]⟩,
   ⟨[0x3003bd09d3de31b6, 0x6883729e83781375, 0x882f56aea7e281ed, 0x936861d399873d07, 0x68db9df0e329d05a, 0xefd44fb8b6ed5b00, 0x95df018de7afd7d, 0x11dd7e7431fee4d2], [0x59256a82052e3502, 0xb12a68cd967c4f10, 0xf56e1410f921e058, 0xf7e2ced1d9721852, 0xe62f6371de8cbe99, 0x51bb6086bdcf5383, 0xde865c7f05f1c9ef, 0x2f4d471e59c9db82]⟩,
   ⟨[0x5238e20b60a83a69, 0xe8ed22d8241f9ee4, 0x94609c9fc44b4d6b, 0x8cb4f484738b047f, 0x1da037763a311894, 0x3b2301d7ffedbede, 0xbe0d9731c28bfa7b, 0x3e672b78e73852c], [0xa1a4a97daa676638, 0x1cc2c685473a0cab, 0x31fe11382e95739f, 0x90aeb0d090c8025, 0x9f0a7073645b652e, 0xc03abf85e83798bd, 0x71fbc2d748f4c4c3, 0x56ae0e1e0d38c5ba]⟩,
   ⟨[0xdafdb67cf2c2c6c1, 0xfd6b132ecf3d93c2, 0xa6fd14bdae365613, 0xb5a2a4a2b04ad13, 0x2aa0470a36b30288, 0xbc9849382a2bb583, 0xc05200992de94268, 0x2cd5fbbb49e1a2c3], [0x82c8f94aad935d9, 0x20aece5c51a9454d, 0x5be24c7e19e2401f, 0x7becbaf1a327a3bb, 0x39e76f20b6300e64, 0x5d151ba79cbc4dce, 0x7726284b5d04c2a, 0x4d8bd241b721a54d]⟩,
   ⟨[0xd28b4a8e9bb85232, 0x4f965f03cad53584, 0xdae3617bdd1b0f12, 0xdb8660b36777b034, 0xc67184dd5f952b6a, 0xadcc669ce065ad2, 0x1fc9cb4677ce4665, 0xa01b64d2234474a], [0xa749e821d915f94, 0xf0d212c9425f6eca, 0xc23d0141281cd10, 0xc933fd429db5fc8, 0x80dda2efba5d8406, 0x8c1402d5338183c4, 0x6e06c3e2d4b5a7f9, 0x64e3e1ab8506ca5c]⟩,
   ⟨[0xac11d879c94ea8d3, 0xdd8b6ba31f28b33f, 0x647e69adaeead88d, 0xb49b31e13933567e, 0xbb12fe39ee7a3136, 0x28ff74a3c80837a7, 0xa932c81b75677a8, 0x53d93d35c29f7f54], [0x284971943ac6d6ae, 0x220b50c702d7f721, 0xda33488cc1fc3346, 0xdd86f1ecf9ed4655, 0xac1853b2632db517, 0x3736ea466f0c3545, 0x3d92a7782d45b919, 0x5d9f56743d09db84]⟩,
   ⟨[0xd301679af99589, 0xb5213f3c5b73d12, 0x8a5a80ad39e67dbf, 0xe2c58969f837f8f4, 0x9ddf8923d4ee1d6c, 0x1ae3e0af33df50bb, 0x7fbaa73b4e518813, 0x1ce6c9b65f7bb71d], [0xb12b057d66eb4a4e, 0x1c88e248382599e5, 0x5384c3e84e5081a6, 0xb7992a1c9e4abc53, 0xc0582520044bf086, 0xe14418eba7db6b58, 0x312673adc31464e1, 0x27deaeff5fead6e3]⟩,
   ⟨[0x55c37c50ade2ea17, 0x1e1596544f0c5622, 0x6c96793cf2bd8529, 0x2b5624195af8e077, 0x47f6a01952a39000, 0xc364f4d4163efa85, 0xd3116c3358be9780, 0x4dbed7419f098ff2], [0xb0dd4831486d49d8, 0x84a0c54975913b1c, 0xb4a793263e2fa892, 0x9e24fb33f8e1fcd2, 0xe9e35346bb163de8, 0x4b20fa159ea0df0, 0xb4d02bc4b8742a03, 0x81fa0376c2841d9]⟩,
   ⟨[0x514f4acbfba142d2, 0x996b6e0394e5f474, 0x5223e730ce24ca53, 0x527581ea4f5b06a0, 0x31e6dd1a6a33b429, 0x93a4e1c1f6375acd, 0x6c726ff3949ed4f7, 0x4e416e72f8f882f8], [0x26fec8642fd16999, 0x41df4a57aba0e3a7, 0x15e54d3fb4faf8ac, 0xe4318bdc6f3f282a, 0x7c320cdf014698b, 0x71b738303468cbce, 0x1fd1af59d640cfd9, 0xcf151aed34059ef]⟩,
   ⟨[0xb7107ce7a2b3df22, 0xc1a4e08b90b45d70, 0xc86afb665e20257f, 0xdd33cc9611ce1970, 0x44c20c485f20f903, 0x87fece7f936a4522, 0x867932e942105dea, 0x31aee1f547e2f4ab], [0x4ce020df55b1d8a3, 0x5841bb8c9b33e4d6, 0x99c6ef8407e5c052, 0xf6f0defbb139f7b, 0x5e608798366377c5, 0xde403cf3101aff93, 0x164b26d14b69dbfc, 0x190a876646229b9e]⟩,
   ⟨[0xac7b1fa185a61975, 0x975ace540a3c0e98, 0xb80d922d173a29d7, 0x71aa4f0c955e0187, 0xdb3716b93556ba4d, 0x81e375e0248c6ece, 0x4cce97876afd16a4, 0x67a717e803564374], [0xe0fd3f7de94e08c5, 0xda2a587271ca98ad, 0x34a8ead7ba15def3, 0xd83a9987c8ee8ac0, 0x64167a82d9ce22c6, 0x7ee988ede859a064, 0xd8b9d231603e188f, 0x40c992660248f567]⟩,
   ⟨[0x4059be67387928a0, 0x5063c31e1412407d, 0x78abe79bc37fb4ad, 0xa9a4e76a0df5f4d6, 0x1f4cccfcf0c3c9c8, 0x44a6d446bb2d774f, 0x1b77494e4991f3d4, 0x41f3a74cc5908739], [0xb371ab6cc6b26a88, 0x1e7ad15454963fe, 0x12a6652c43898dc2, 0xc9cfd8ba1ee1bbd9, 0x22037206c5437711, 0x327f948d062e81fd, 0xa2ff4f469c87b698, 0x1e83a7f94eb0808e]⟩,
   ⟨[0xe2f16272b80f91df, 0xa0265684b186ebd1, 0x207dad692e7d6a85, 0xefabe500f27f03d4, 0xedd0f81d0244072f, 0x4ca26c63944aedea, 0xd8d01d46e874f15f, 0x73e39eed5a1130ae], [0xed9953fa0e5ec45f, 0xf62ddd4b4d672da, 0x5115fe6f89507053, 0x58968a298354b66c, 0xb37024d572adf8e8, 0xd7ec1d4a4d98186b, 0xb5b41ad67f418ac8, 0x2c0959c568b72616]⟩],
  [⟨[0x1dd33dd599ef1f4e, 0x2f2951af3cb93cf3, 0x7bb75d5798f20535, 0x64c36788bf95ddde, 0x74b787c95e211976, 0xb464f818be8d9e4f, 0x2631f72191beb188, 0x3581cb615ec2bfd7], [0x56a35d67c41a6ef1, 0x5895e76ef69a3d49, 0x3192d2f8b97fda2, 0x11240c0ba0a94fa9, 0x4dc27f38bddb31e7, 0x38ae33d69a0d11a, 0x9f3a13ee857974b5, 0x2aca765e0222e516]⟩,
   ⟨[0xfa06efb5d2421565, 0xc199817d8ab1719f, 0x44325f2f48c3d0c4, 0xdd6c11655a80bbef, 0x3079192402a61986, 0xebd53e2a3a7e4b1e, 0xdd3e7657c7ab55db, 0x43ea2db27a09b71b], [0x9002748e0a3ae7d5, 0x590f7c65b23ae62, 0x44ee4fa64a2305b0, 0x914591bdaba335d8, 0x5888289fab32fc4d, 0xa5fed8476e19b810, 0x255c3f9917db4a48, 0x431eeb86f25750a]⟩,
   ⟨[0xb398ff44d0a38e64, 0x5fbad7b905e41904, 0xba57597b357b82cd, 0x18be4419a929e6bc, 0x3f3f6d35a98b452d, 0x27425c5f58d546da, 0x61a1bbdac446022b, 0x3ea60775689d15af], [0xdd0970423f8c1b93, 0x951aac5631e09914, 0x99c77d0f647ccfac, 0xf3cb5c7a6102dee7, 0x2c1caacbf9484e59, 0x7ebd7135405766ac, 0x267c325cb0c58371, 0x48fdf94dc2f52776]⟩,
   ⟨[0xf64427884ee6ee71, 0x49d6f157c09d8faf, 0x159f7aa23c93bf65, 0x992387cf0b5464c4, 0xfc15173bdeda026e, 0x90b860e6c989fd74, 0xcc08bc0c2e98cc2d, 0x89d2d48c85bc472], [0x9087c7463953e507, 0x54f480a390f97b85, 0x83d619939f9cc5d0, 0xc55de44c1970015, 0xc45d5ea1df669193, 0x5deff1e7fdcf23ab, 0x2b38d4792a211f3d, 0x99279253e31284f]⟩,
   ⟨[0x30454c23c38eff1a, 0x706fd470fec8424e, 0xa216319733467a08, 0x7c8a4d4380e6db64, 0x505d89bfe9ab850b, 0xc10cfeff5e8df0cb, 0x3eb45df716304b39, 0x3aae23fe527c325b], [0x65dbb826c153da5d, 0xb8ec2676ffcccc80, 0x4538fbab1c8ba8c2, 0x6fa94e5266fd20ca, 0x480d857ea9b7513f, 0xdb1c611c82814908, 0xf1f21ff53f81aa5, 0x20696d2de1a47218]⟩,
   ⟨[0xf31aa6227ab6e8d8, 0x3d12f32b686bb479, 0xaca48c8a3bf6e8f8, 0x39d4f322fcecfcc0, 0xcbd2e493c8bbcade, 0x18e2a8e75c695155, 0x4047ed16df022d32, 0x1040565ecd6cdb7c], [0x1b72ea4764515bd6, 0xdc58ae89320c9cb, 0xee53907b5310cdbd, 0x7c2c62a154fe7719, 0xa04150808ae9c75e, 0x2bfc37801e8a0123, 0xbbcb26fece6823ad, 0x5e4b59a0d61b79a7]⟩,
   ⟨[0x8c93f97590c0c1ca, 0x871a9018f518a16, 0x6477e523964cace1, 0xe52d22c8a77046ac, 0x4fe86722f9911c69, 0x8b03b1960e21642c, 0xdd3523efeea31df9, 0x4d4edd43d896ae4f], [0xeb5c2968b8cb58a3, 0x5c6c5b639af9580a, 0x20759ceb3a166247, 0x812fbe1b0f964024, 0xbb295eba816bfc2c, 0x355256260bc4c607, 0x411799ed7d134609, 0x7ecbda128615fbaa]⟩,
   ⟨[0x45eb69b3e7c6c149, 0x9d414f65f40d6d9c, 0x3fc4d2a66ad70201, 0x39f56d22e2eb20a, 0xae25d395ce4f7ab7, 0xd69ae8511b640f4f, 0x912ba30ccf08596a, 0x7c552e1cfb7da74a], [0x57f7b3cc298071ac, 0x7b38b1865029fcfb, 0x43d0a21ddbd1afda, 0x2165a125cfdce1d5, 0xc2422d76099e931c, 0x3940b3f9d220528d, 0xa530e1e05892ddf1, 0x5d1060bbc5edb806]⟩,
   ⟨[0x3c39cb0da19a7bf, 0x9227c95735061c5a, 0xb86ae697e6733c8e, 0x4790ab411d91d056, 0x82599e6e91944712, 0xe6eeab302126986f, 0xf6cf67704c7c86dd, 0x962c8e081c7f520], [0x7275701a3e672910, 0xcc253d25555d4eaa, 0xc87804a50f307d6f, 0xa6c402695e6e364d, 0x5a4db5779de73155, 0x8513bc0545b03b16, 0x7edb8b9f5cb1a5df, 0x5686c42ad4905c9b]⟩,
   ⟨[0x1b9368c4c1288660, 0x5f83cd353bcefedb, 0xb4656091c33cd356, 0x2284d9074920232f, 0x87816b0695b4cbca, 0xa35a7191ef2d4546, 0xf9e71b1d296e871a, 0x72a7b9c35330af13], [0xac61bc6f401be940, 0x634d9d70dd2350e, 0xe27626f00ce45a7c, 0x9b38569f3493fa74, 0x3f23c7036ec9dc13, 0x8bf8ff129c62d952, 0x5d53a2d258132258, 0x1fc830a533a57773]⟩,
   ⟨[0xae58a3b90f294e33, 0xf12e0fc4aef8f84c, 0x78c5bdde649d16ff, 0x12645ca18827c75f, 0x1288c5667f97abed, 0xcad8e5dc1e2781e, 0x24b69a1dbc92ff24, 0x7068305d545221b2], [0x7a9a3f7c40f6201c, 0x5b7e5fa25efacd4c, 0x85facb2ed6275627, 0xdd0fba635bbe856b, 0x30826b1b2e456fd, 0xff397e85f898479, 0x68ecaa4ebfae4984, 0x4eb40475cac01fd8]⟩,
   ⟨[0x141804f12bc4c766, 0xd84a76dac8fb07c1, 0x29376b5bc83676a9, 0x3d3a00eb3749490c, 0xa5eb6cf7c5f439b6, 0x16266439ea156432, 0x1cf83e2503161d4b, 0x37603f2295e3e8a3], [0x62ee26ece920edda, 0xcd7734a30fc4df7d, 0xef3e6c9d7fbca6b, 0xcf2460da87f1873a, 0x5110721895cf1c, 0xb92a8e934f11854b, 0x985562510c665d9d, 0x3cd64282174a7ff2]⟩,
   ⟨[0x39243ea7b9f9e43f, 0x973d4582270d2db1, 0xeb8b50330541ff4c, 0xed5f52a09f309d70, 0xe978fbae123f45b6, 0xa79b6930015781d, 0xc5da0ccf5c9a03fb, 0x1c6e4f58f16d4ce1], [0x9674c2e89cb89db, 0xb3d147b1c94a4d96, 0x936f3f8827d24c12, 0x44e8c741a8c4ba25, 0x249a28ae920fdde8, 0x274f2b4e229b2c19, 0x94c203eeff4ec64d, 0x53284b1f43358f20]⟩,
   ⟨[0xe3ab8baadccff94d, 0xf038d9a5f97449ee, 0xe4a45dcf5ef19f06, 0xfff8ad9a17ef6368, 0xceb6b85addf0b6e, 0x6c7b60b196ac1ba3, 0xed84f897a25f77f8, 0x1ee6167155886360], [0x8b44f387ba18315, 0x8a9ffae9f3d0e0c4, 0x82807e7de5886e61, 0xf15402f351e94c78, 0x45969d9f96a8af2e, 0xa8e0ed89f4956acc, 0xb5334decf2d21764, 0x2b274e2f861c26b7]⟩,
   ⟨[0xc2e3a80299e77118, 0xffe72b90c6de1b4d, 0xccb21d53e29458fb, 0xd233af10511f0279, 0xc301b7eab9b907b3, 0x59db1f45d7b55600, 0x7173318b3a386844, 0x403abed7d9ab6f85], [0xcfe2cfc14698fc9, 0x40a4198934ce5939, 0xf5fa8499aba363c, 0x99c045ab8cc887d9, 0x1e7563f5e8df250b, 0x2624a5dcd3b78407, 0x7d80ca6d1954a966, 0x789bd6854c8995c2]⟩,
   ⟨[0xba8d937683a05a40, 0xdd238c0e0572668d, 0x5b41446fe0ad7eaa, 0x6d1ad6b463f9c64d, 0xf5fe99aa8830ce1c, 0x5bb1e7dff2b77d66, 0x7382ca41f7e63961, 0x56d6f922555032c4], [0xf9eaa991ac45c214, 0x2a4b717266146ea4, 0x5667d61fd14553f5, 0x996e8d8b3f7d071a, 0xcb023ea5e2229b97, 0xa446a954398ea3c6, 0x733e3d79aaf9abf2, 0x2b4fae8e47503bbd]⟩],
  [⟨[0x24e9082debefdc12, 0x86997ea924fdcd6e, 0x1512918803145f3f, 0xc829d42ca16a167d, 0x55c0a31cfdfacb6f, 0x1a728db45b93fb73, 0x7a187912467a55d2, 0x7934c39c1e8843d3], [0x688d9927f35497aa, 0x2176e4e45a745926, 0xa60f1ed74ff0da29, 0xe1ef2081e66f5f74, 0xcde36e799ee53eff, 0xfcd1d1bf855244ff, 0xd55cdb2e464a4040, 0x39bc13f11e64bb0b]⟩,
   ⟨[0x828b353965d70320, 0x921019c6954fe3cc, 0xc2b142c839dfc1ea, 0x7a619a1cbad22a43, 0xe08fa3aed827c06e, 0xac645eff88baa42f, 0x514723ba294f3582, 0x6fd17829aa355fd2], [0x6366853c11d05c79, 0xe225500b17d185c9, 0xaeec2174fa47eada, 0x9737ecc06666332f, 0xd0638bc9e33aa72a, 0x4889ab0df6cf4e24, 0x2912e4a0039e3190, 0x411cfb3cc035d955]⟩,
   ⟨[0xe59d745b0b3bd0d0, 0x62ab04f90653222f, 0xe6421bb743e0ec6c, 0x6f3e477015e65b27, 0x90fb7585d82704e6, 0xcf7fd882e9a129df, 0xfa8e1b9dd3d0023a, 0x12861b4ade4307e5], [0x9dc0d3d9b86cf424, 0xcfc0a60fc2dbe006, 0x5933baa82b9f470a, 0x112f153ccab8113b, 0x1aeda34056b279c1, 0x1408a037be13dfa3, 0x10d90850c06d3674, 0x3db6999eaf30ae4a]⟩,
   ⟨[0xab96f01356348084, 0x403955438c167f42, 0xe1385c9f2280feb8, 0x3667162576d2c4aa, 0x76e313444d4d667b, 0x906b5973ef0b171d, 0x229bccfaebcca769, 0x36462e608a9a561c], [0xfd5116fd4fe428a6, 0xe92c088af3846007, 0x8ac5f8be218a0d1e, 0x59a97369ddf329ce, 0xea2d262ecab484d5, 0x6f95e17abd10f3ec, 0x6ffbec38e08ddb7e, 0x55e8de216446bb5d]⟩,
   ⟨[0xa5d6141a0cb565ae, 0x8786b494f9091fe2, 0x89b1900f1d6c9279, 0x425ad0f5c21934c0, 0xf781fbf6e2201d3e, 0x7210043361e0191d, 0x186a39995b3e5491, 0x6df058e695e49235], [0x82d37e0234559e42, 0x4ae4a8aca0e7f1d4, 0x9941a84cb34aaed2, 0x4da92d325484ece0, 0x6f1fb58ceb7c740e, 0xec6fae864965b6cc, 0x179e84801ceff73b, 0x58ed2bb372724658]⟩,
   ⟨[0xd6fa5a23ac30848e, 0xfe58e2d353705571, 0x43368f7247ef14e7, 0x7dda0f48694e6bb3, 0xdfa9bf9e9b7cef9, 0xa3bd4b239803203f, 0x3f0eaf0daa1b561c, 0x6e8678f311c56c8f], [0x4e574afbb4272d39, 0xdd9622a926a589e0, 0xcf41d02818e2b544, 0x7fe65a44479b717e, 0x38d34c1fabde58b1, 0x4a8b1a4920e02ee5, 0x6c2c5af126d927f1, 0x8e02884ce4d534a]⟩,
   ⟨[0xf47477733c9034ce, 0x92b208b8a8cda587, 0xddb5a865a8a5d6f6, 0xe3c3150e09ffbbca, 0x120720d671780dee, 0x6977608d1cb5e7e7, 0x52261203dbe5697a, 0x1c88e9c4184e7b19], [0x6be6c1909927bfc6, 0xa1452123f431a9e8, 0x62bc5bf4b949ed5c, 0xd57633c02bcf732c, 0xa3723f7c0ae4563a, 0x5449afce031958ea, 0xe3bf9985a6580d6f, 0x34b0d3206b471aa6]⟩,
   ⟨[0xee28e9fc46bf771f, 0xdcd3c06ef23b38e6, 0x894e78648d62d86b, 0xf226c4dac0209fc3, 0xeeb85a816ec4d3b1, 0x837f8a033abec007, 0x622c40bc18c1a3ea, 0x49a59cb2279c341a], [0xc3833abad38dc85b, 0xc512b7213e303976, 0x80cb1adfa43ba4bf, 0x6c8a15748fad6957, 0xb5305ae5a0dc03a1, 0xa63fe0fca78753f7, 0x81c2bce17d4eb934, 0x4ed73812ad66f6fb]⟩,
   ⟨[0xac25ab81ca09a5d2, 0x1e000efcb6ee3d0d, 0x7eda899f148738a5, 0xee70dfb44abd3ca0, 0xa9f18af3371f70bd, 0xa2d64fe430e796bc, 0x77e4219038943dc4, 0x35aeb8a206eb5cfc], [0x95d36c2eda26db57, 0xeef40f183a546e88, 0xad4d846be5d07294, 0x80be6ba895158ff2, 0xc15ac73fc85f84ea, 0xbafc39522044951e, 0xea750e8da14c51ae, 0x1817f004524fc6fa]⟩,
   ⟨[0x9c835db314555cd7, 0x76a92fc0299196f6, 0x35cdf54d6618f1a6, 0x4b77e5a0b3260002, 0x321c2eafa837bdb2, 0x559ae831d5d4a743, 0xeb18d7fe116e5cc, 0x3fe7d2921945e60e], [0x4ca61aef649d5551, 0x7c3cfbff95257cc3, 0x8af04a7466a5d03b, 0xa0c95adefc3b143a, 0x515258cea61b0143, 0xf1959d4b43a147bd, 0xaae3ef4c43b761e4, 0x731f5d9ebb8bea3a]⟩,
   ⟨[0x483d5f556283c8da, 0xce48f6fc067af22, 0xba767432cfb3fef8, 0x1ad7f214463510b2, 0xdcfdb1a77d448527, 0x3eefaedd119ba281, 0x9d5f25467b6597ab, 0x3515e65b8ae2ac1], [0x91a17476a768a2e9, 0x921b21aa1c0b8745, 0xe1b0ab68d1636fb2, 0x35af62c10a933bc5, 0x24432c7b6cca56f8, 0x88976c8fe142c3d6, 0x1bac1e5dc0eec621, 0x2760b03a7eb64467]⟩,
   ⟨[0xcefcab97535d9b1e, 0x2ddf1964efc85889, 0x62276e0267fc56fe, 0xd33d4e1f9ea27125, 0xd11f07263eab0bfd, 0xcef5bd00b4e5a283, 0x107cb2fba5ecff20, 0x1d110bec85321266], [0x5cd67bcab9c05938, 0x23b2fd6ec9ed6ba, 0x473fef71c44d68be, 0x6db457a124006876, 0xa56c47e35979901a, 0x971f5fe7006b786d, 0xd894b21c8e3630e4, 0x56b8610dff0ad8ed]⟩,
   ⟨[0xdc5748066a9ad8b6, 0x39b1553aa33aa074, 0x55233daa71ef2a51, 0x6186f6f0ccc11692, 0x949f7a8d51e7f2b8, 0x9ed94f29bf2ff9b7, 0x54ed16da3b90382d, 0x65d09754014335a], [0x95da36f27b737144, 0xe0a7c458ddd9c1e0, 0xdce291c69b64234, 0xf943b7278689def3, 0x1cb8375c24f80b28, 0x60efaa298902ec28, 0x36bd90f673f34af, 0x687b36fb02b1a208]⟩,
   ⟨[0x1704a5980c031ee5, 0x325e60968288ec60, 0x588f58a116efc6f9, 0xa1ea547f2c520574, 0x2633cb8f7fd9f40a, 0x736d8cfa3aa1c0dd, 0x189e74da92b3300e, 0x6c92be1892172793], [0x3b67dadfc6e25307, 0x170bf45cccf961f7, 0xf07f48b5b2c0629e, 0xacb40994974f7169, 0x29ad746c871177c5, 0x1ad449e2e3ae7857, 0xafb63cb9ae9be21f, 0xe6c676cb08faeec]⟩,
   ⟨[0xa60e0d9f60cabc21, 0xbdfc43cf8ba79177, 0x8362d84b7beeccf8, 0xcc9e6ba29f8fbe4, 0xca90958a4801bf01, 0xcb84005ef13c6356, 0x9ca6408b90ae5ab9, 0x293582f2e668357c], [0xaa3a680affceb4f6, 0x19ce2d54f18508a5, 0x74027ba5f430a62c, 0x7248cb8edcb846d8, 0x608f15e83d3779e2, 0x21b8a43852bb6633, 0x64b4c82ea95bde4f, 0x75169f73ca13d8b1]⟩,
   ⟨[0xdc6c53c97435d441, 0x621030cd630885a0, 0x9f761c574ca9bbe8, 0x3cbd7b5189453166, 0xe80014e453eed18d, 0xab31fe34fd48c287, 0xb908aa720b1f2c06, 0x2a849d2eda592359], [0x688daa1b9b7da75a, 0x779b963b42d4659b, 0x44bccbe10da7f5e1, 0x96f4fe4e0e283a19, 0x239f780f532628, 0xa8e1a47fb2bd3f1e, 0x23d8f15049d504ad, 0x36f4d7ada818fb1a]⟩],
  [⟨[0xed7aac766fa6665a, 0x593fd44fcd7abc00, 0xb70daa5de5940ebe, 0xbbd56469e6ceb5b5, 0x17b54a104ec6ec19, 0x2411f294f288553f, 0x108208281534194, 0x3cffcf3f98f85e1e], [0xb82b0fd07e62220, 0x99b5cc1950f91b0e, 0x2c60f9383ae5c675, 0x6a25b099f42e3eea, 0x498948a8329d208c, 0x45226e626a343691, 0x53643f68b8e9c2d, 0x56e1e5644a938da8]⟩,
   ⟨[0x144da6782242a19c, 0x860a384c072e8a2, 0xd782a875318a08b7, 0xac99802e8d318c54, 0x329437a2307da17a, 0x35656a126696dc0f, 0xc5a9914ae2152828, 0x3bcbd2fc841c814b], [0x7d2fcf55590c6fc2, 0xcccf43156197dabe, 0xf4701c360e2eb665, 0x9d4f5a7ce9400a11, 0x815c62182f49f529, 0x264a9befb015260a, 0x279a03b8177e94ab, 0x115481e6f6e2518a]⟩,
   ⟨[0x2fe0c370bb65b1c1, 0x620fc63eaabd8550, 0xa6eda03f9660303a, 0xc15fd5c5802b6899, 0x6dfbbca530fd19a1, 0x2bc0dda1c5394aab, 0xfc6196340cf41b04, 0x64ddf00e7dbcb198], [0x78b289f692602d0b, 0x123cc6a5e4a24732, 0x5f2db53b70913278, 0xd55ae856c27eac92, 0xcc82e112085696ba, 0xa421c17967f01774, 0x7deef7fde602baf7, 0xa730b335e94ada]⟩,
   ⟨[0x586d8dc81dac6f8b, 0x89a56ac618f1fe48, 0x51231a77f2a8bfa5, 0xd36be5feca562e8c, 0x5dfe328f9a6268d9, 0x3110144c781fa0b4, 0x6a18a1907acbe702, 0x68f941c2d70c4b5f], [0xce3c1de30a19654d, 0xce96c00049ad2799, 0x9ad7b0f306e913ee, 0x625c4fc1472a1c37, 0x1e25e3ac967bbd4d, 0xe516cd882042c162, 0x1483a10ec3197e40, 0x60815a8a84e5faed]⟩,
   ⟨[0x3413eea8d1313b07, 0x4b6c2ccf49bc14b0, 0x56c78c84c33be839, 0x980f4f0dc481c6, 0xa34d712c5e96bae7, 0xea386c4aeb0574f5, 0x834334ab6bb4dc04, 0x140f220947404a42], [0x970b7de3cc6f8d14, 0x7c9a38e9ccd6a840, 0x7c1c4638a63faf90, 0x36afea841f10834e, 0xa9aa4a1515765f2a, 0xb20b2249d9240c98, 0x20116417d03abc25, 0x69b3430037a8893d]⟩,
   ⟨[0x710fb0751021f8ca, 0xf90919dd64008516, 0xb0ed31722ccc8ffc, 0xc6adc85b78988c41, 0x1cde6a9d0a1b81a9, 0x9abc5114c80cac9e, 0x877e608243a7b1a7, 0xca1f0d151bd9782], [0xfbb662bb6e6aacb7, 0xdcab0d7796cd1a74, 0x603f2717dc56300e, 0x327251b0fe92f7e4, 0x7e0cbed7031603a, 0xa0f296ecd04c19fd, 0x3296bf9bb8c5e0ab, 0x41e72ddb49e5e7b6]⟩,
   ⟨[0x47e9562cce99c0c5, 0x4c5fd161ba5372bf, 0x5d1b7b15c808664, 0x9dbe76b6539f8180, 0x646c3ddfddbd7bc3, 0x6032b9697376739, 0xb71dd971696bda3d, 0x75061eb81d340fd0], [0x6fd064fde6a7dca5, 0x79a316508db01de3, 0xb1b65a8df6483911, 0xaf2bbe1ca9de2c37, 0x6b663c9e85cb42c5, 0x464fedfeb583e78e, 0x393c00f8ffdf93cb, 0x61cc9a6d9f96cf15]⟩,
   ⟨[0x40edc986ca774807, 0x8b2a531c4c334c01, 0x72d378c4ceb21fd6, 0x169c54e43833d841, 0xcc830e8e82fe513f, 0xbdc4ecd7abf34dd7, 0xb5349484aedd9ff5, 0x12d7adb3a404055b], [0x88027c00637b7c24, 0x755587a6c0eb319d, 0x3f24e32f2027178a, 0xb912054ea4fe8f8d, 0x6aaca9115c9a68d6, 0x14772328235cf842, 0x6d3020a80c0175f8, 0x587768a73e0f7418]⟩,
   ⟨[0x57e3a1f91154c74a, 0x80157ff5b85fb8e8, 0xbedb658dee5defec, 0x65c0aa98067e9a0e, 0xaf9a507a229a5289, 0x6a13acf0f954dd94, 0xb5f3a18d53dc4c19, 0x6aeb3f585af938f], [0x503f06228c9bb087, 0xea19ac85e3fea015, 0xe446cd70403fb8fc, 0x1bddc810df5b398f, 0xcaf818fad2caec6, 0x6983e52807ab004, 0xa6b33e3c79428650, 0x182e3d46231bae71]⟩,
   ⟨[0xaf54b735b309dc4b, 0x494f7441805890f1, 0x3ccd5f0cf87271f6, 0x2914763b7638102b, 0x3ca50d01fd258079, 0x6d9a3d4777cdd6a9, 0xd81373b81f4a05ce, 0x16b258dbccd443ed], [0xc9d4009fa3805fee, 0x5ec56730225fa57d, 0x4a51a79bac17e4c0, 0xb389fba3e7750942, 0x2b137d6e1ab7e8be, 0x3953702ad8c26efe, 0x6d86ed3eb79f2828, 0x36eceee86d6a62c0]⟩,
   ⟨[0xf97e85fb6b8b9b02, 0x3319d570c6f128f6, 0xdab74e23b4ca56dd, 0x50ca71ef81fcbb47, 0xbfc19f2eaad7f910, 0x96650f9bdb3772f4, 0x5823f134b6f26494, 0x1b899b3ecbfbd2e3], [0xd1589c42f6cf8f8a, 0x3168aaf534ddb625, 0x4c73053572abda08, 0x8b1c24c7f82913c3, 0xd7d80f27239fbcd3, 0xb18b4f056b7c205d, 0x2864763fd92056a6, 0xb3ddc7bbcdb3022]⟩,
   ⟨[0x1ab037d6207f772b, 0xf050dd3488767bfa, 0xfef182ff79abf05e, 0xaafcfd0f4b25067b, 0x1eb7623534e155b0, 0xa3b921c965cef7a6, 0x6cbd50b3d9216b0a, 0x3e298a719e578a9a], [0xc0dee8511cce9059, 0x397344bbeba49de2, 0x45a60a85b08513de, 0x55d314f9f0d07f9b, 0xbf6d4d5112d12611, 0x49f9bcf130a7e8de, 0xdb0a90585435d109, 0x4de5c43f0f706cf2]⟩,
   ⟨[0x7ff298d670b6d62b, 0xb2ff0ad4e67688d3, 0x5e63a6b2805652bd, 0x32d81219ad74922a, 0x77d2e3a3a9cccc31, 0x31d571b2cf2eee0, 0x471653bd4fc7c9ea, 0x2322cc680afc2a13], [0x3d152eff08c6d70e, 0xbec9cbcfbec5dbd9, 0x41bd49626496310f, 0xd23fc983b1a88e6b, 0x5b622edc5ef464e2, 0xc6500addffcc97bb, 0xf2ccd3efaa783ff4, 0x51ad36047ce05cc1]⟩,
   ⟨[0x4796ee8324c48e44, 0xb4d448b0bba7bc62, 0x2f356e4a1c32b713, 0x980d6dca32050781, 0xb52b1826b5f6c099, 0x1f7d68da144d7f5, 0x9abc596a23999cb, 0x17c069dd66246640], [0xb7d7f96c1f7e37a6, 0x57e198c0e46aad16, 0xb2088df9d1c0df8c, 0xcc38ee43fdec190, 0x68dd1fc4fb2d9b68, 0xad94674ad1d73c0, 0x9529c7df1b92b955, 0x6711e3610d141f7c]⟩,
   ⟨[0x1b1a51593b87c175, 0x7f62a639029ff8f9, 0xa2e37638c69adefb, 0x3ac773c658e309a0, 0x9e7a85fd22efd710, 0xd29e2f3da60e5275, 0xc4734b9b1163c9ed, 0x9d3204a9cbeee57], [0xb2339f8d0b8a97aa, 0xc19c67a67ae97b4d, 0x8c0e823f65425033, 0x447f972a8b186d7f, 0x43385e2932a6c164, 0x95049508e9e78569, 0x2af8c598a074b68f, 0x18ac97b85cd5e2f7]⟩,
   ⟨[0xfae6158901deb288, 0x33f684f3885b8ea2, 0x89a90618cfa425b5, 0x8f5d3c2efbbf5b15, 0x379803c6c2b6cb28, 0xfe683ea3990ce2db, 0xc1b3c21f7b6e4e0c, 0x6f152c2eea3513dc], [0x235053389ab792ca, 0xc64c7f27282a67af, 0x6fcbde656498b24f, 0x6fb7f7fca1612a06, 0xfd575b9f45c74402, 0x6ead0805a709a516, 0xca6208aed4ef066b, 0x23880ece93954e65]⟩],
  [⟨[0x2b13b8b87fb1977a, 0xea6510ad21b7871a, 0xdbdcb0e8882483c7, 0x5e2e96644c379245, 0x581d4429ebaf2c56, 0xa929cbb0ca79fccf, 0xe74d3d662009377f, 0x664661a5610cc0d1], [0x1f778c190570237a, 0x905aeb861769a370, 0xf51b013bd6c06aee, 0xdf0d890543efb668, 0xdd082bc311e4d5da, 0x58aa1283d7be0c1d, 0x97f20d6b941e9230, 0x486c960c8bb614ad]⟩,
   ⟨[0xb573b944ce9052b, 0x88b5c4cbd78f10e5, 0xb131989b77dca0eb, 0x7f405d8081e63c3b, 0xcc31f1853818ca2d, 0x42f386a2fe177ea8, 0x1b7dd56e9d888b2a, 0x3a6d84d3c8e873e8], [0xbcfef8777e3fbcd6, 0x5da67b53b36f3f68, 0xe840229a5827fe5a, 0x17689956b989407b, 0xad6e3f87afe27325, 0x62027c70db1e1a3e, 0x86a2c9097ebb4747, 0x47adc4cc4a919d6b]⟩,
   ⟨[0x92381565a4ca0f15, 0x67fb0c76c08705db, 0x661da00403ba6d54, 0xf875ef2477c5c4f7, 0x769b11c4157a282, 0x8adb10acfaf534c6, 0x312147b9ccd6ab2, 0x75390c00d67a443f], [0xf5a29a021a1047c, 0xcabb96fb83a146b8, 0x1375356a2a3f2f48, 0xdeab754483c57db4, 0x1ab71412f5afa2f1, 0x21d94b4873b58749, 0xba87e6d5ff2f369a, 0x4b3b90b6dbae0e08]⟩,
   ⟨[0xb8648e3f9116f02b, 0xa5e5a03bcef02b4f, 0x21eb9835a70f456a, 0x44865319c8a7c423, 0x57db3941bcd6c0ad, 0x20d97a3a7d371806, 0xbe61aa4f0f8a3d51, 0x7a6e0bba13cb7d2b], [0xb3b98673eea5d6fb, 0x534eb45f87b03bac, 0x6ceb244fa9508557, 0xa47fbac7f209cc15, 0x41ebf99d1fc65c19, 0xd1477a867341650f, 0xc4e6eb8eb361e0f8, 0x68faf82ed2b3d548]⟩,
   ⟨[0xb9cca467f92b039b, 0x9f7180af0e6f2a2b, 0xc3084870ada011f8, 0xc814d1dc882d7a38, 0x3a145072d51c1d14, 0x595ac55bd70f8b08, 0x67308d0571efed45, 0x2c660b9822dbfa33], [0xc8eb4eecaf8f2980, 0xbc8f2d726145ab09, 0x1a0a9d53c22d5e84, 0x8e6460089ecd643e, 0x6c704f66b541e2d8, 0xeed597aa31995198, 0xb9032fa3619126c2, 0xca4aeabb0a08f01]⟩,
   ⟨[0xf48a003ddb421144, 0x4a7fa5929885a445, 0x40aa1c28e8fa3db, 0xce94d87491a15b11, 0x79490f6df0e875b7, 0x743a531d70318e86, 0xe88ca2afc4630cd1, 0x6e2fe529f5c5d4ad], [0x619a4f46fe062d25, 0xce1b5fadbd747c4f, 0x3c4283663d512728, 0x7fe8790871afaec7, 0xb70063103db8315e, 0x97a0397b7195e9b1, 0x51eb939f84870127, 0x768a3cd7517a32ee]⟩,
   ⟨[0x25234ffa257e424f, 0x5d80ace8ad164952, 0x4b15f3867b4c0f5d, 0x71963894f95006bd, 0x4781b77869963c75, 0xdecd94fbfd339850, 0x1533454e11a9d79c, 0x3b17ec4092bfca33], [0x58d0672a12a30834, 0x807b665b3e66f5d6, 0xcd732ae8b164b077, 0xed26f82ef1f732be, 0x4e65cb2e75a7b899, 0x2ea2be743c72f22e, 0x60cd26f64068cefe, 0x63734ac01febefaa]⟩,
   ⟨[0x290e6008e7203401, 0x3497cea1a67a0f47, 0xb079862c641f5b86, 0xdf3cb4837a0d51d1, 0x4cc0dcd1bc8d25b7, 0x1034f5ffbdfac20f, 0xc5896f316881dbfb, 0x2c6bd4a168a39778], [0x6fab7060f5cedbe3, 0xc51f3245f7141245, 0xa3ffa5a4c3ef1eef, 0x2fc2a0c7206172d5, 0x6616fcff094e55d7, 0xc3f309ff22ea071f, 0x685aadbdd267faa, 0xae3722a6bc770c0]⟩,
   ⟨[0x7b11dd6ae67270fb, 0x128a3510016905d, 0x9ce64782bfe007a0, 0x7324986d7714e091, 0x3e796b16269e4410, 0x707a148c9a97ad36, 0xbe29a34087d5b9ac, 0x2f92e67ef0d882b4], [0xb9f0664257636c75, 0xa803ef99fb7f18eb, 0x4b8a1d791e9bf04a, 0x4c43526d062068d6, 0xca59cff0800f0ff9, 0x8be857c3e4389a8e, 0x5042cf565383ede8, 0x6791c9a0e02f40e]⟩,
   ⟨[0x18a74acef5d076b4, 0x50c2161e41ec2cf, 0xecc5823d484f2cd0, 0x63b7b1bdaa7c332a, 0xac6a274dabee9cd9, 0xeac874f87b7a7db1, 0xfa4b8e8734bea81, 0x1ada0b97243d05ba], [0x724c084f822c8bc9, 0xae697a1ba117425f, 0x391728042cd06676, 0x87b4f92023213e25, 0xcba8c7a1fc373ed4, 0xdac6b96bd2f10fd2, 0xcc175798fd265cff, 0x1631d89cb731090a]⟩,
   ⟨[0xb639a2086d19cb56, 0x78f0f35342a88733, 0xc6bc527be0323b20, 0x3406cedd6de64954, 0xaa89168bbaf8a735, 0x7f68cea02d7b04ab, 0x6ead81b25eec36d4, 0x1c41724ebbce0784], [0xda5383ad831bee83, 0xa8b7bee3f3c29716, 0x5b7e054035aca35b, 0x8f006f3fb8f21324, 0x915849f8a7b700cb, 0x77c5b34da455a08b, 0x13ba7c32d6d73c0b, 0x65d599c96936ac88]⟩,
   ⟨[0xf636cfe84da5fff8, 0xe5fd754ed1e6e947, 0x8f960362388a72f1, 0x95b55a07381c1c38, 0x31e1d02d1df2f860, 0xc03243c712ea25f5, 0x5fd87b58c28c0062, 0x5769e94d9d950661], [0xf88c7ccf6509e6e7, 0x8a021babd3971a21, 0x2655b4aa9b284c2f, 0xc3e14580c7050955, 0x63b332e290e60ddf, 0x6ab86d32f1cd1b51, 0x9896ac1113bc748e, 0x516d4d4a40fc1ebc]⟩,
   ⟨[0xc27dbb0a8f7b417d, 0xee24827a770cf92d, 0x22e08b645f9a2a6b, 0xae739513e10f76a1, 0xec6e2d9dff544277, 0x470c22b7740db83a, 0x643b7953ee4f1e82, 0x664094975556fb59], [0x4c15c4cb728114e6, 0xeff1bb9f1f29ef7f, 0x8e00b92a259562ed, 0xf28b146c9838d769, 0x3d7c8fff206622cc, 0xd521181d86457fad, 0xbf56f6639d9a3085, 0x11ba1feda24b415a]⟩,
   ⟨[0x149597f7035701c5, 0x55b1c4b6361cc7e, 0x10df1572c221af72, 0x6941b1e9c3d3a167, 0x29985cab38d00af6, 0xdd9b839119e385f7, 0x65268e33f2e81932, 0x4fc872735c07cef9], [0xe1644429ea012b70, 0x639fa8744bdf6ace, 0x7bae6afff65480cf, 0xb9ca15af606eff3a, 0x10f5918ac04c5263, 0x50f27e68ed3d0f98, 0x647c1ad33134d7fa, 0x8ef017df869eefb]⟩,
   ⟨[0xd474b5fdf229a34b, 0x3819d4e29e0a164, 0xd24139a8d0910b9, 0xb4f45c8d9c2d8e8d, 0x10e4bea22f21718a, 0xd3d7ecde63da06e8, 0xb2aab06af148b0ed, 0x630152b1aabd0f7a], [0xcf4d05c23b1563b4, 0xbfa58b4e6f355349, 0x2fa4a29c04d1a769, 0xf4e15f9d1aeda992, 0xfdabceb877819c9, 0x5edfcc1cc3edb0a3, 0x76625dc7d1dbcf40, 0x3e558cf02a7bd819]⟩,
   ⟨[0x7c7924f07a883a0, 0x18484807010ea080, 0xdf8602feb6b2b992, 0x38a2efdcaa03aa11, 0x60b0031119b2bb14, 0x9e12e7fe15e28bf3, 0x2ac0917bbb0271cd, 0x24126eae1558faad], [0x2eb303ef19170edf, 0x6945946bf5779ad2, 0xe4e5635a31b7df96, 0x2b371d13d6ac3252, 0x38e781988116c539, 0x76df4a2c6c89faf6, 0xdfb6755d6f233984, 0xcbf63f6d382985d]⟩],
  [⟨[0x936d53bc56b39fa7, 0x751274ec511d5744, 0xdaf4432af29d41c2, 0x717a68c1014f8954, 0x6d5d3f05736f4024, 0x52e785f812d037d9, 0xc04cba1902ca06c4, 0x432078069259a368], [0x1211482b2be51135, 0x5b473f6ee4d32066, 0x91991c8e4ade99fc, 0x124378e84865136b, 0xaf791646bfffc5cc, 0xb7dba11536d38141, 0xe8794265bd595b7, 0x39b7d642cacc032e]⟩,
   ⟨[0x76ace7c8d756ce1d, 0x4bec8290f8a89f09, 0xe8fe848c690139da, 0x8c5cb5cc6a541656, 0x6127bb25a79f1a2b, 0x955551cce17d0549, 0x648a32e958e7c3fd, 0x366035a5a60d449c], [0xa4cf0ccb67a48368, 0xcf7d74f7be344234, 0x6dffb48cffccce, 0xbbc66664fb55072b, 0xaa51ddd15efd8af6, 0x88d0cfd46f004c47, 0xd18c2dbfd97bbb13, 0x5e5982001e7e68d2]⟩,
   ⟨[0xff9fb488466b58d2, 0x153a751da8041078, 0xd7e96cb3d5817adf, 0x56a7a135511775d8, 0xb48fb40677e5de7a, 0x4de670fb997a6721, 0x446019b586efbada, 0x403cc005fa535082], [0xf85bfee2c2fa986d, 0xf2b77b880e0c320b, 0xaefe19728fe98fa0, 0x291fd9c7e8db8196, 0x7c3ab36df579d9d0, 0x7f202bef764622dd, 0xdfd4de34804cebff, 0x25ca634e683b7281]⟩,
   ⟨[0x2e3bccc2eeb585de, 0x728bad6d9c7ab9d7, 0xe298bc835c38cdf1, 0xd88d423b610385e, 0x5710f23571744e3a, 0xd9312cc99681cff4, 0x1c46ab4af3d5b3bc, 0x48be540be2631926], [0xbfab35a15ccdf14d, 0x16c3216cd778f586, 0x2a60480004128bb2, 0x5505889a7d2e1aa, 0xbe8b94be1de7c7b4, 0x53e72ebf05bb8dec, 0x1a38c5da2870c597, 0x76f0e77bdd36b123]⟩,
   ⟨[0xc13d1e8a83b68dc3, 0x5f7291efa93d168b, 0xd1c56274ca88f0f6, 0x58edfc8c868e3651, 0x9d8f42af70692949, 0x65903c3381b6e052, 0xad71b078262e1f70, 0x7a60d3bbc40dc22f], [0x6b64f0dbba1fc54f, 0x6ddb148c81f84a0b, 0xcfbd966253955b40, 0x67d49d079b35db3b, 0x6ed336dda8ef7db2, 0x7aaf4b8a03f2a331, 0x9751dbe15c3873ca, 0x78479b108193a7ed]⟩,
   ⟨[0xb05edd9a487db2bf, 0xf905159158f7e778, 0xbd643be6dc23cbf4, 0xbce094ecc1ea2427, 0x2a3f3b4b4eb1bd95, 0xba8fc9dc6f5e1428, 0x7dc28c949f053047, 0x58117a0cc553dc91], [0x4888b1e8d4a6137c, 0x5dc05984f8dcbd03, 0xae2c8657d2f55576, 0x54721beffc4da255, 0xa326693802c9ebf, 0xa33294aa91186df0, 0x716bd76fb822390d, 0x7f023c0b7c4aa61b]⟩,
   ⟨[0x6506da35046a8017, 0x23083c16f785115e, 0x7858113724051bbd, 0xcd36d48f5088ebfe, 0x23f7f0a35e542acc, 0x720187957d015b1e, 0xa69e68d438d2d742, 0x36808a3b023b5c20], [0x660d03d61feab6d8, 0x77a1e18558d53e94, 0x67425f4e74024e57, 0x3b9160080cc26788, 0xc7d287ee3643998, 0xb0d98dd127b3b31f, 0xba621971bb980cfc, 0x77591087404a2de1]⟩,
   ⟨[0xb768c63dc15c3d38, 0x281aec4d54dba325, 0xbb51d2e450c9b1f3, 0x86bb9bbe7268c94, 0x9e0af3510c7ed37a, 0xdbc8852839145aa3, 0xa70373beb1ab786c, 0x273ac4d90a73090a], [0xd618db6ac280e9f5, 0x9d874643a9685a4b, 0x7ef799b48a9c1951, 0xaeae400cffba36bb, 0x889119cb145dc10a, 0x8b052ff1bf7ae53, 0xdef76ec0e3f04b93, 0x35a13bb206dc2cc5]⟩,
   ⟨[0x97c54e1c613c9fd0, 0x7d4beb4142581f50, 0x9401f44a5bca7caf, 0x5fd7e0b036115d18, 0x714fc514cd0dce05, 0xf3b737082ab3265e, 0x118fb47a8798ea8b, 0x79a1f4cdfe5c2bff], [0xc0d3abaa103ff4dc, 0xf5d504ed146d121c, 0x38b7419b842caba1, 0xe1730788907320f6, 0x37793be111875f, 0x715042ea0aab7249, 0xf57d27ef15630b39, 0x3b5033305d0153ca]⟩,
   ⟨[0x44e75f39c8aad5e3, 0x3890e8ae506b9c14, 0xdda7d91f38915d2f, 0x412802b85f28e467, 0x8ff3e17711b51dc, 0xf23c1ef81c96d4a, 0x7b8e28a157511a7e, 0x6020037042c2bacf], [0x5457aa668559dc01, 0xdb0cbc6fbb083219, 0x316c4876f981be19, 0xa04412b99b98d6ac, 0x20964cb82d95c876, 0xf643f29e51009c2c, 0x5316d85a30c43dd3, 0x104eb0c846a82d48]⟩,
   ⟨[0xc05add9a0b183769, 0x14e8ec7a653e726a, 0xe5311f878d457375, 0xcc1585a825d9120d, 0x4f39be371a945bc, 0xfbfad37418298210, 0x95f0bd1e3a9d2053, 0x1eaeefedc056d70e], [0x3274833c1e6e949a, 0xa38ea2cac1d152e6, 0xe77a10271b9a48ba, 0xd44cf88669b03ed3, 0xb52d35e72d9d2b8f, 0xfa67f927f99bd52b, 0x3910d907df337872, 0x53e3909c90bf7a7f]⟩,
   ⟨[0xc558db4e8fc5b40a, 0x330982a37511657e, 0x81a476210b883053, 0xb1f534713f3db1d4, 0x8a2b835a0c804e24, 0xf8537a453012783b, 0xc761fc419dc2a56a, 0x50369dcb2c12be25], [0x19877d98ca00d808, 0x305586b51da7bd8f, 0x683bf46e0fb6f9e7, 0xf23f54577e53ecb1, 0xa09a090117ee25e8, 0x61af93055baa52ec, 0xc12b74bea8104024, 0x6bdabbaa60a876e3]⟩,
   ⟨[0xec8adda438800f3, 0xa47197e64fbf0259, 0x324e06961767f99f, 0xe455bc2e440710a, 0xfe2316897a5984f7, 0x7706d5c73cf323d8, 0x6dfe4b08ffc9fb5e, 0x5e912ec78f9d5207], [0x9b71034dd7d1ac99, 0x5786b8ad33d5abf4, 0x70e625b7426e2b80, 0x71d53abb6a33883f, 0xb42de25aaa10aa82, 0x709b3cdfc313c9f3, 0x49f3bbc799a04bd3, 0x5b56d9bb3390b190]⟩,
   ⟨[0xa4d655e505dae0b4, 0x3402db147016ede7, 0x58d4efc5117097dc, 0x4f397afc61ae9fdc, 0x3ee32fbe85de0e4a, 0xe5c9410018f9da9b, 0x6248b57030778d74, 0x569d70c9ff879b98], [0x385fd4c879a7786f, 0x779353b992c6e962, 0x9c9103fb5aa82e08, 0x128bd7ddec3b37d1, 0xcc0376f898ae8c82, 0xdd33b1a3289afb7d, 0x2b3a6be5f1d2f3ac, 0x2b342e8f58c1dca0]⟩,
   ⟨[0x4ada9f0f924940fc, 0x636260e5bd4e799e, 0x10650fc885ecd23f, 0x4765f0532ae8105, 0x22f515e9deebfaf2, 0xfb6611b1ea6ed3ba, 0x2d260305b116a647, 0x540a895aceb63ed4], [0xa5c897ec65640bd2, 0x1d82ad214eb90b65, 0x2a00c3c3a2bd6c71, 0xd9be5d85a185ce8c, 0xfa039fee02e9dcd, 0xad1dc7c0806b50c1, 0xa78992c20c6ab58f, 0x7d58fda7fbe348ea]⟩,
   ⟨[0x7e652776f4dbdfc, 0xc35157c0e4e35aa2, 0x9844955dfaf9cf8d, 0xd1832d2fe577a918, 0xcdd6ccfd212a678c, 0x19406763262f2bc7, 0x1b5fe0fc7dcf82e3, 0x72fcb51228083b97], [0x2eb13174cae3c67a, 0x571dbd3528f8cb44, 0x3f3514da7b2f56b1, 0xc59066972e1d4cd8, 0x9f9589da3709fd27, 0x539cba98dcf0e714, 0xc6fdbe8236d31bac, 0x22501c258860078e]⟩],
  [⟨[0xb6baa4c5e7462a35, 0x4cabef232de0e694, 0xe595f2ce67a94587, 0xb4d6b8065de13ef, 0x6ed1fa63b88601aa, 0x63daf3ef254800df, 0x15f07c6b6edecf60, 0x746cb00f49f82df6], [0x4860833ff95dc407, 0x245fdfb1d4d68d59, 0xfd7e134628c585c1, 0x3307aae7aa744d74, 0xab21f1d527c71537, 0x1bed3b9c541adb51, 0x48e656280b804584, 0x10213dc396c62e82]⟩,
   ⟨[0xa971a3219e900795, 0x41151e65a28ad250, 0x88fbf84cb46f0286, 0xce5e34e32c5aa2bf, 0xc30f0784fe74fbd6, 0xa19aca519dddc5bb, 0x30cb6369d954b6af, 0x20c72b2b1ba9f34a], [0xd9f6cc9421721ee, 0x5239e3d2701f3853, 0x48cf795d10a37d0d, 0x2822acf8c1454415, 0x9ef24913f9392c27, 0x9317897633f3f273, 0xad1cab2aadfe5db, 0x2454195102019622]⟩,
   ⟨[0x577e8e89122fe6a1, 0xdfed3ef029dcabc8, 0x91b0ae211f1ec613, 0xf4fb2e9f43ec585c, 0x402f8d435afdc7fc, 0x7df6e3f43bfc6ddf, 0x4b14b20b2094f2ce, 0x6621fa23c9f3fce9], [0xc167636b61482134, 0xc2d96af4bd89aa34, 0x4d19c54777a1383e, 0x86476c72994b20ec, 0xd71188da3611027e, 0xeeb9cb25bfa77ea0, 0x63e037067a9ffdfb, 0x52fbc7359e1f711d]⟩,
   ⟨[0x4d58058f9dcd39c8, 0x742dcac8560a57e3, 0x51314e8ac40593c3, 0xaa35caf4bbe9f40f, 0xd0d06acc7b4df87c, 0xe02b48cb897586cc, 0x30ab25ab9f14ab3b, 0x77b9d8a22dcffd42], [0xde1678e743f00508, 0x2f82d94ee59d0799, 0x1d68dc5f7d85ff61, 0xccd286eaa577e85e, 0x7820217205653ce9, 0x80bcf42c4b096045, 0x983ac1da8d9dc78c, 0x48ade8d1757f008e]⟩,
   ⟨[0xfe9cadc1f131c430, 0xcb4facaed4acf7f9, 0xa75b35b64b81aa0c, 0xdb73bf2a6132294c, 0xdc1998ee35fc4fbc, 0x1125cf55f1a96ba6, 0x800577a81ac0769d, 0xaf21977e4cdac1c], [0x12cae81d91dd37f9, 0x81f5baf61a432775, 0x62a87c5d81cbcb7d, 0x781596ef2d311e47, 0xada41a240ea6ce86, 0x64e561d9198bfee, 0xd2ebb0d78784fc32, 0x60f7f749e00d527a]⟩,
   ⟨[0xb6220879f9f5101b, 0x8e51e911ed750b14, 0x5a0ff85156b8b8bb, 0x6efdb4cce97f0f1b, 0xef4e3272cfee47c1, 0xfb33d3ffdb73fa56, 0x8702d241d5c182a7, 0x1342c905b061f4c9], [0xccfdff8b40b3b920, 0xe01adaa1234f25be, 0x6ee2afd9ca98b24d, 0x833c8017933cf022, 0x9446cdc88b7e88da, 0x8a83deb0252b0c4, 0x5afae687983b95bf, 0x417a1691bbf76f93]⟩,
   ⟨[0xf1100073e270155c, 0x913b27ab37d73458, 0x723b646f8799368, 0x891c7858b8599816, 0xbdcf3c7aad13a257, 0xf473bee8106e5b5a, 0xb093d48427722f06, 0x33895f5c8e4cf84d], [0x530f59fe1a92a242, 0x703fdc05d5444e38, 0xec6fb903a9b55c56, 0x102929baecefef64, 0x76b9b329bfc1f153, 0x3f794ad77a32a9e4, 0x9a344bd7ad9d9f76, 0x1281308b8f22fe76]⟩,
   ⟨[0xdbad1d0455d6dfc4, 0x1674c09f78fb03a6, 0x10f038f004f4eb90, 0xd6f8cebac933f8c3, 0x6d3018d6322e4ae8, 0x3c0e8dd865fb0400, 0xe04fea5f8603f6e, 0x417f6c35cf3d2fba], [0x4f62d458c6dbf972, 0x1d66cc0b3c69018c, 0xdb741bc64f1297a2, 0x7eeda8d5ddec7115, 0xb5d07b39a910ca8, 0x5d74bc7e3d0fa9e7, 0xf3d10634dc25e76, 0x7bdf3f13ddd0f35e]⟩,
   ⟨[0xf4b8e8f949a8e647, 0xd2045ff4c9c7f249, 0xa73e20731dfce331, 0x538fe0c260186a35, 0xf6931385d44d55dc, 0xaa0fae8bbd2d5d5c, 0xa1df24510ce9e7b7, 0x453b0239f6e915df], [0x92e689fd4bd5604d, 0x302f7b7cea5fb1a5, 0x9a065527c6c18bd5, 0xb6b9302338018472, 0xec4f8e47775efe83, 0x5efed6cd5d557e9f, 0x883149a7f32db82a, 0x32bb4dd5a83ba057]⟩,
   ⟨[0xb45fb2398ce494a6, 0x6e80d72b015a171f, 0xe17a3d2b846810f0, 0x86a2c703c689398e, 0x163cc0eaf84177d3, 0xcfc5453608485195, 0x49ed48e3aea228cd, 0x51d4cd9a5e05a3fa], [0xd75c938e0a28c1f0, 0xe18fcbdb0d986264, 0xe29546b0129a474, 0x718c5f10b4e6503e, 0x5bffef16e89ffd06, 0xd87f3e8d7abfefbe, 0x3e6eebd8b05607df, 0x1b3135d4030fc02d]⟩,
   ⟨[0x1fca9768afd466ed, 0x3711cd99dde4fe72, 0xfa6a96fba0bc2449, 0xb4e3322ddf617ad1, 0x652400b538997d42, 0xe4033fdd5869744e, 0x5e56cf67f8cf5a3f, 0xb68f41839950dfd], [0x31f316b3921a1064, 0x84cf2c3860ab95e, 0x4fae7cbd33a08792, 0x13e887ae5c2f1f4f, 0x1b4d941c5a2c1393, 0xe7043946bfddc322, 0x2d73cd5ba801a880, 0x6cdc6bc245019eb0]⟩,
   ⟨[0x68d9ae8272a9bddf, 0x3ea7b5d0c4f79a39, 0x8a9e525dbfa9189d, 0xc4bcdb4f08088070, 0xd4f1b3d0f0019d99, 0xcd3981d03a21c513, 0x4a85b07a51146a17, 0x44e11fcbac9373de], [0x45c28b85406b1f1d, 0x7669767ba598a7ab, 0xe4dc8f54caba790e, 0x7259e49f4002264b, 0x54142e6d78a9f0e3, 0xfc3843172d74e9b1, 0x949a6e31471ba3c1, 0x2196e341269dbd46]⟩,
   ⟨[0xf090b2141c85c152, 0xc66553e02980953d, 0x50050906908b9243, 0x489b07b818f1b4c3, 0x39c781de4a6a7071, 0xc3fcc6b415faf2a8, 0xc9a9d650df30d339, 0x2bcf89690dc87b05], [0x6bd111010d36dd59, 0x9afd4507af38d4c5, 0xe9a345a31fee36e3, 0x141074a837454ba6, 0x89747031f603533f, 0xab75320e897f9fa2, 0x52927cdf594481a4, 0x2c8fb10bbc2244a3]⟩,
   ⟨[0x456358b81c40c77e, 0x26a15ea81732ed35, 0x36f26cbb9aea6548, 0x6589ac51d7fad4c1, 0x4804a1bc9067988d, 0x633f203e4219111a, 0xcd90d01c123c4bbe, 0x617eef2782519788], [0x8a7f22a79ddfbbb9, 0xf8cedc4ec8f9e873, 0x547a5995f8b00ffd, 0xc6780ac53132f91d, 0xad7113506dd34140, 0x1c0a71ec83d8a3e6, 0x687d67c786e0466b, 0x7ce57b02bd67492f]⟩,
   ⟨[0xef5a0fecc4a0f3cf, 0xceb2194be3c2a79f, 0x7371ff56d37afb50, 0x881c254a68cfb693, 0x31f411b17a5b61f5, 0xc2141eeb13e15910, 0xd4b5d01575c6566f, 0x1335132c60c17f10], [0x49a2d9cbf9eed825, 0x514441ae7c41c5a, 0xce9f19f7636ba847, 0x5517505744f44b74, 0xed9cb8ad26f9dea, 0xbbb248c084bd07a6, 0x2c867fb19cd8a6c1, 0x230b41222186db7c]⟩,
   ⟨[0xc59af140bc6b2647, 0xcd781156d5ca9d30, 0x479cfcf804c5c668, 0xeac4a5c0b08beec5, 0x8772b60e6c67636a, 0x99266f13631a6ef3, 0x4dade9de0d368b05, 0x2f9488cbe42cb970], [0x4882b1d4b6fb1965, 0x6423bbb4af24ad57, 0xe52b487ec406cf8f, 0x502802add49d4935, 0x6832e21624d5128f, 0x42190cd4670eae40, 0xa2d4fdb439258f40, 0x6127e350c5cadeea]⟩],
  [⟨[0x160d95bd896f045c, 0xbb8aa2c5406d8ca3, 0x1b4e10b394f274e5, 0xe6d305446332db6b, 0x95250d6a5aae23c5, 0x67458318fc831ac1, 0x5d21c9b63510d9a, 0x2416562c20f2a3cc], [0x8b666c7ad6de2b6d, 0xc49d98d0e54b6b3c, 0x73315c3f90558a8e, 0x212910ad44e631c4, 0x7d2ebb7ebb053e42, 0x396ad2614fef86c3, 0x90da355c5e410bed, 0x344a24dd43c9183f]⟩,
   ⟨[0x509715496ac2509a, 0xfcaf5541fda9f8af, 0xddfdc6a9b3f2b1f5, 0xbca36b59b7da428b, 0xb55602be357dca59, 0x803c92a1ce692e5d, 0xcd723c3d6dc19967, 0x3ee4bc03f741820f], [0x70113c23bb103f3b, 0x35fa914436553268, 0x505b79171c026e84, 0xa43e12561ed89d68, 0xc8ae5cfbc87289be, 0xd573e0cf2b9c5072, 0x709b1c4b475fa7a4, 0x505adf5981d07d11]⟩,
   ⟨[0x1bc79e6aa4afd6ac, 0x156c1b3626866c93, 0x6e4f2fb690a70847, 0x745824e0e37556c2, 0x384788e85bf6585c, 0xad6a726b87efa785, 0xd93a3b7e40feb98e, 0x4ba6a352282eb335], [0x36ee7727937fa288, 0xf1334dd2c0513862, 0x7af1b32e30fb68f5, 0x2b0baefe3196b14d, 0x5e7ba8d721e84fa0, 0x4da767cd256ae375, 0xa8d467f8e0f658db, 0x7709039e20db1855]⟩,
   ⟨[0x6155bdc4b26ee5f4, 0xf0cfd2b7c48a3913, 0x75aabca163bfb3e5, 0x9232746dc525da22, 0x5f00a6cd333f2b14, 0xb3216c2bf8eca91e, 0x9a1f1ee8f6e4ff19, 0x3c76adcfb0074f5d], [0xa414bffb45309788, 0x83ef3c3f86539f4f, 0xab8ceea576c4a69, 0xa01cc45813bef0e4, 0x855b7f00ea181987, 0xa97f14a9e30f184f, 0xb17df2f0554d467d, 0x29f0a944d6c8100d]⟩,
   ⟨[0x57796871c7d083c9, 0xb83cd7ff0da74190, 0xa077968f97dc4a71, 0xc27429ec08acdc2d, 0x4996df62b52dfee, 0x13511c3a1c182059, 0xcc27218acefa8f7f, 0x757bd45a0e51331], [0x5f1d65d453dd761, 0x71d57417f3c5f5df, 0xc1e204338fa1ae7, 0xa68a6f2e36e7bb29, 0x3f3ca00f221ea420, 0x840830f61484f503, 0xa011ea6118380fc5, 0x63e08325d4d5f0b4]⟩,
   ⟨[0xac4f176aa5352f43, 0x2c0a1d79f5346c89, 0x3f16b2ecea7357bc, 0x1fe6e8239cb644f4, 0x54e68bb4e2c9912e, 0x82b35e8e98e581ae, 0xd855e028d6611b81, 0x3d420591a8c7abe1], [0x71326cb4a4d7c106, 0x5ba8407f7e21f3ea, 0xd33581d740da0d53, 0x7ab205460c1e7d99, 0x71438057cb0075b5, 0x2f9ad50ccb952fee, 0xfdcf4a128b942a98, 0x25cfa1bd8bb5be5]⟩,
   ⟨[0x2bf4abf727bf5931, 0x78bd4315d080a1ba, 0x1eb55607f12b24d0, 0xb7bc25d68e8bab49, 0x1b666ae60e68a74, 0x9e1e74179058e10d, 0x5d2493d0ab695d1e, 0x714d7bb5271b7fbf], [0x869b52f63bd07521, 0x3413a47c038e8a90, 0x2b7724d4c2b6d60d, 0xd500a48cb984b181, 0xdcd8259499ed9e13, 0x33c480ba09397dd9, 0xf98da63db36cb025, 0x593108a0c33fd92]⟩,
   ⟨[0xe3bbccb7f01ab893, 0x3d8d3bd26ce61b0b, 0xb030ce07fc00db91, 0x78add938aa51d38b, 0x8fa757976caf34cc, 0x28c34c7e494b4cce, 0xecd5f38579091116, 0x455fd9533512b9b1], [0x1d2150ef3cd57be0, 0xf130b2a043cef565, 0x1146159cfa4a4082, 0xde949d6ad6bb7e30, 0xeb8984ed40a2a53b, 0xb9e72fe4b920cdbe, 0xa507ddcab43a51a9, 0x3eb7d79f6c7c6f7f]⟩,
   ⟨[0xdf75fe14dd356637, 0x4b21206bfbc9e9db, 0xa33bcf3a729bb2f, 0xa61a363c686f49f2, 0x426a460334bd498c, 0xe87eda60705f7cd3, 0xf9d24a5ae633e9a7, 0x52063d93a4325c1d], [0x2890eec23eeb132, 0x430e865d39ddfd, 0x118e18f6a1e47638, 0xbb38e8c75806cd2f, 0xb7e5375ef7ce9486, 0x73daa9ebfde35e82, 0x117e476182070d71, 0x317df0be915bbd57]⟩,
   ⟨[0xf691548725b74127, 0x4333e7f518162d83, 0xb435bef9a429665e, 0xeee9b7b720b9d358, 0x436abb8bf8d1d44f, 0xd1219f9abf38b81f, 0x7cee70639035de38, 0x34129008b341ffda], [0x6595a1b099745c5b, 0x7df297a2c0685bb, 0xee85c714998110ad, 0xd251e587e2a8ad4e, 0x9a38f9dcec4d02c1, 0x60da566fccdaf4c8, 0x1bd9a21a90b08ca2, 0x6d9414aee97f4ea0]⟩,
   ⟨[0xcbfaa86174973250, 0xc58a0f6bab15aa60, 0xc00f822dfdb7a15d, 0xaea74910fa067def, 0x3750367b81f3efc5, 0x3183e3e8afc6ec7c, 0xfb62717ada10cd9f, 0x40431c1d6eec9774], [0x423e731005914824, 0xa4f7a9789de23908, 0xc151a73c7d5d18aa, 0x1b85b7cbed1eac6b, 0xf25caf8c075066c4, 0x99508d708004809b, 0x6bedc19f212271c6, 0x2ccdab3977a5ae84]⟩,
   ⟨[0x14203bec23389925, 0xfbca94cfcf059388, 0x17626b408124f30f, 0x2208f6e5c1c98eb6, 0x9b385200961f4c48, 0x1c9f33e8002e5c7a, 0xc426a94058b6dd91, 0x6df740e51cec7286], [0xf939798687e56c60, 0x84425935587728f6, 0x394a3a012fe267fb, 0xb9c6481fd451cd8e, 0xa6ab4f4b5340aac8, 0xd7fd96759b85ff63, 0x3d3ae591ac5aec86, 0x43283823b96673f7]⟩,
   ⟨[0x24214d2374e61ba9, 0xb41cfb58f69ed123, 0x8e91fe0254f5f407, 0xfb9899364f84200b, 0xaae985ce024e62f0, 0x896815eda0bb20f6, 0x3536095b3df1e5bc, 0x31c5afa09e1eb847], [0x5c32910fc2b9b4f0, 0x32aba81450dbb2e8, 0x17e2b52f6aaf8a27, 0x142e63ac111cd6c3, 0x15d5f29722b6d227, 0x22380a783c14ce28, 0x29f4951c5249f727, 0x24c25987274839de]⟩,
   ⟨[0x13f552e914c6ca73, 0xce9659270b154556, 0x330e6d5983ee34e2, 0xfb7b6051e8035ad6, 0xc58fbca85b2d081d, 0x254fedd191d78c8e, 0x438ff98cf877f74, 0x479cee4a8bb12dc9], [0x1855a1c37a0cbcdd, 0x3667ffbb000ffc35, 0xc053a4bff880e9c0, 0xf8e1bcc105aefe0e, 0x1afee0f20b65dbbc, 0x63acb97b9e945f96, 0xdfc8096580b8f0ba, 0x12a145ebe919be03]⟩,
   ⟨[0x8bbd02e8c6008c86, 0xb7ace6c4516bdd2f, 0x914ae008e5036467, 0xd06cf39287987c22, 0xf78c12dc71ffcb4, 0xb4612fbbcbf7a3b3, 0xb6e692557b711004, 0x68cee9ec1ea5ed45], [0x45e4a8d15009fad4, 0x1d303bd7b1458df2, 0x388523d9be13efbe, 0xac9f6d4ac15147cd, 0x551f34709ecfa216, 0xff1aa33ac9311f4, 0x34eed866b8d84926, 0x6bd5ed1c72c2cc5c]⟩,
   ⟨[0xa283ec1a9bdd8695, 0x451a730ba599147a, 0x9b6cc56ada71f52b, 0xb1002cf577d55722, 0x354328cd07a8d105, 0x86b04ca87a21026c, 0x53bada3d50ec9794, 0xbd230c8bbc32d2b], [0x322e97faf7e3c388, 0xa0f06207ad6feb4f, 0x3b05c04e9a128aa1, 0x5de3c902214d1ab, 0x632c92a7e69a562b, 0xe9f9dee06befc0b6, 0xd269f54763e05275, 0x4b2e1ab6c56ec35]⟩],
  [⟨[0x9db921fcfeb514d4, 0xac3cb4485f4f30, 0xdaff6f9fed6b15b, 0x74c16af59a5e67cb, 0xaa73c142a8275392, 0xbf53e45446a65634, 0x2819387f03d87479, 0x4bc9293db495dddb], [0x755ec69618ae902b, 0x147291751e9c6398, 0x82396b3f29508353, 0x932903ae08614c4d, 0xa4b24d6450bc308a, 0xa89daa2f88bda41e, 0x94fc7c4684f8a09a, 0x1054948eb4931402]⟩,
   ⟨[0xf3e0bb8f8a7ba306, 0xc31fde41a45240b6, 0x5ad7e1ae1755b86, 0xddbfc1f9bcdd1230, 0x8006bdbbb4f8b744, 0x865829028ade1d9a, 0x8fefe3b7078339e6, 0x342996f446216ea5], [0xe0e1b5b39b3d4651, 0xb2fc080caabbe714, 0xc720bd5ea522f01c, 0x11d0543b95f65ebe, 0x880103c484d4123, 0xd3f969f396976f8b, 0x614855b7fdba1cc1, 0x56d4eefeb3ec4b2e]⟩,
   ⟨[0x29dc51c3894eb7e, 0xf4aae8789d9876b7, 0xfcd3c74e2388a33, 0xad4c4cf791e31014, 0x34f61ff111977d22, 0x984416fd7aafc8d7, 0x4a4413615dae6048, 0x50d2387b7b1afa0c], [0xd8be85a1bb8211db, 0x195092c3dd31fed9, 0x1f6fe6abc1764c23, 0x6a25de233f067d75, 0x8db614aaa244aa1d, 0xab0d747325b11975, 0x714067c5c036ea42, 0x379935d66f3b1132]⟩,
   ⟨[0x1e8339d48e762cb5, 0x1857091c0df30209, 0x2e4ac9a729523926, 0x5983f6d2b7d5a5bb, 0xa99d8d11f31262fe, 0xe722945da5cab7c2, 0x3196bfbde8767862, 0x43707848a59924f6], [0x8f0e368ac78d8788, 0x50811a264bf7da53, 0x9e0cb8fedca664ff, 0xd2b8dfa082edadd5, 0x9c457724a0c48e4, 0x6ec46a5c22511381, 0xf5810bb4313e87cc, 0x20c5f006ab5a6bab]⟩,
   ⟨[0x76c6f60ad87a06af, 0xab7144ad78fdebb5, 0x956c36e75646a659, 0x5477d0f6b785e745, 0xfe9ff2324594bc06, 0x1783b9a03039a102, 0xd41e6c5a90db0ab3, 0x43749fb47550121f], [0xb7c6d143d17ca661, 0xb1591f572b73135d, 0xf03232c9c62dff62, 0xd3d1c629caf25761, 0xf633733f4b67d224, 0xcfbbc0d0764ebf02, 0x41cc07dd63c7ee19, 0x53bc8a63e8b36cb5]⟩,
   ⟨[0x1e9f596c74caf7ff, 0x8088ef968c049872, 0x3a9ea96ece1208bf, 0x892c44e715daf25d, 0xaf6e1ebf5e996ae4, 0xa6eee3cbac1a746, 0x9d471cb1caf162f6, 0x13f7192ae6be08f1], [0xce44c77a49fbb46d, 0xa7b9136f5a04a72e, 0x6ca33ec42b937703, 0xd4b3aab5e8685fff, 0x8efe02b3e7207ef1, 0xb138c46db83d0e5a, 0xb73e636af6c29885, 0x5c1e124272567a55]⟩,
   ⟨[0xdd967b6a15137904, 0x4588baa76969b92d, 0x99580a4c5e2ba269, 0xe80802b4915645cd, 0x7246f3f2fb6591ae, 0x68c2f8c6cc25f464, 0xb5172e904905ae3c, 0x6860bbdd675591b3], [0x68be15c0626489df, 0x65ea3d880c737beb, 0x9ef8b6cc32b5081d, 0xa6238bb1b16ff753, 0x22191589e17264c8, 0xdbdae7a3903e28dc, 0xb36fcd91f2dbcb8e, 0x1ebfac475d33835]⟩,
   ⟨[0x7b0ee204bc820aec, 0x500da7fc8568c4e8, 0x992a6429b0961d29, 0xa3cae853e65d7fda, 0x7b6f5e7934197e58, 0x90d37eacc4e849cb, 0xe01d14af0106fd33, 0x4be8367980027e17], [0xa412ba38a85ee145, 0x219d461e5097cd50, 0xad42175c29ecfcda, 0xb1def962d04faefa, 0x5b527a4ba95983c1, 0x48a06c96bb20ab6d, 0x7bad34cd1fb83513, 0x458294dffdf018ed]⟩,
   ⟨[0x1d1ebd7ea695a157, 0x296dd049c52d5ed9, 0x8958f5b00be33f05, 0x6b7f7204d37e60d7, 0x446f7b95c668c85a, 0xb6e53b2020f60396, 0x5738ff4e8e621e73, 0x5dbd4958cd9f00c], [0x645ad9d6cfecaa9d, 0x1cb8e093cef6673, 0x2851ed4e06d13da7, 0x61fe9a95cb18dfcb, 0x62cc060ff903cbfe, 0x121b6e4ef14b0b1b, 0x8cab6654c4dec6f3, 0x718809984b40d6d4]⟩,
   ⟨[0xee5ca2a49583fb84, 0xef16cd074462d044, 0x1c1d599921ebb18f, 0x66d7586b0aacad30, 0x8edf0a452eb12d8b, 0x1a320a44223de805, 0xa389da0a0c2f092, 0x274ff5417e68a2d9], [0x6cc34b5330395e54, 0x881e630b8c112729, 0x801e1cad70e4c811, 0xa527ae8291c2e90a, 0x93179bc8562ae094, 0xce68a130148f4f44, 0xd8ca2ed032f8ccfd, 0x415fda40527f82b]⟩,
   ⟨[0x9f5ca1fd25aed793, 0x5b95b9aa09c49711, 0x386c8fbbb968168c, 0xc6b27d7dbdc778f4, 0xbd5439a2321a9d97, 0xea40a5fedc4ba6a0, 0x94913f0f962508aa, 0xd2dd91ab247396e], [0x1f459cf117c64eff, 0x2e10b550137e003, 0xfc375fe460f82dfb, 0x9cca9d6e4631eced, 0x575c197ce5053fda, 0x2ea3ecee0a5b9670, 0xe69deca1a6f50038, 0x32f452fbe8edda74]⟩,
   ⟨[0x20980611d9e4c490, 0x827d79f174825ddd, 0xb4604e04218e0b22, 0xa7e5e3a1f4f1752, 0x50260245243d8298, 0xebf01c841a2101b7, 0x369e69ae69e1a262, 0x5fd078684c1c960a], [0xc542d34ba8f15793, 0x8f14b8fe393381e, 0xb6e06e97f855cd9f, 0x47a195eda6cee8c0, 0x8776f026b05a740d, 0x811d7ad6ac8ec060, 0xa61e5d2729002efb, 0x3d51d70e0c78e746]⟩,
   ⟨[0xc0d70275c99e1438, 0xe95c0ecfd5ee6b2, 0xe14f58b039e6733e, 0x57b179eb4941c24, 0x5e12f07f93c0a5ef, 0xf600367d05e72cab, 0x89fcb008899f259f, 0x2654687c9c3e30e7], [0x85b7f9b73f148638, 0x8088f4f29eaee0b4, 0xa741d2703a7cafd7, 0x8973a806db5b5339, 0xaaf4e75c22ddcaa9, 0xa2450a79cbb763cb, 0xbe1b3f2a016e5e3d, 0x4b1061b2ccecc258]⟩,
   ⟨[0x2f28689ac9c8a23a, 0xd8fb298059341e8c, 0xd3617b26375acdad, 0x314fa469513ed120, 0xfeb30225e2f8df55, 0x29e001af1f639d66, 0xa175ddd4dbdc9737, 0x6a778e4f8015c048], [0x4612651ecc55dba8, 0xe853adde2b3c7b06, 0x14b2d0b76e0b2e41, 0xca4f0872ee804e0b, 0xea2afca5f893d931, 0x6eb018919be51b1a, 0xb0d8500d1f2769f1, 0x1303ba01a47ffc13]⟩,
   ⟨[0xbed58425b43811ea, 0x57d7e5364e52e1d6, 0x93de67febf5ef913, 0x2ccda4e32713fc52, 0xc5c1b6f08f1fa4bb, 0xa267a790a725295f, 0x13bb7d112d219844, 0x7faf96a275415602], [0x7879edf44e4c3ce4, 0x9cd59a0d3bf094f7, 0xd7976deb4a882a52, 0x19ebbc10ba65afba, 0xabc373502d48d187, 0x5d5ca6c31236b5f9, 0xdfa55ac2915eaf61, 0x6c54515ee8735632]⟩,
   ⟨[0xb1cd06dedc21b326, 0xd6f6f904e4ae6148, 0x941b7545fa13be52, 0xd527042fdf7ce61b, 0x1ab4495ed9c9bbdb, 0xa5cbe7c5bf6582be, 0x1d0b5ba241a1da90, 0x6f99305c0a810954], [0x866c254f40d3954d, 0x5debff4d2e5a123d, 0x14ab6fb8ad23124c, 0xae3c32b6c6b13624, 0x74075ff6707528ba, 0x55da7227e91d5097, 0x450d38486a9c3469, 0x15818a1e2313eba2]⟩],
  [⟨[0x27be68b414125d01, 0x875491142482bf94, 0xe8b709318d0c8af2, 0xf38d32bf11344a8b, 0xcb7cdfd163136143, 0x717954cda17d7de5, 0xd65bdd447c10df5e, 0x15c45f814e821d20], [0x7d425e66d9c326c4, 0xeea0d61a1c7b4bcd, 0x41a8654a8707e9c8, 0xba9e8f7c0b4a8f46, 0xb96a24fcf2739871, 0xa9ba022ffd9c9d58, 0x59f7c2972c9ae418, 0x6b82c284b0cdd468]⟩,
   ⟨[0xd4c5486a58483fa2, 0x8f140259edc6a022, 0xe451fb0cc43116f8, 0x5368fe4765df7628, 0xf0dcc6dbc70855a, 0xe726d87472bfe81, 0x9c64b7163c024f88, 0x1abae0d814ff6089], [0xc0aba6b3b5a15618, 0x71faa6df65ce0681, 0x3199e2c939a6f5bf, 0xd8ebfeda85bcf47e, 0xc3d57d3bc262a35f, 0xf0d6338e0269dfde, 0x9072e1e0e6d0bf0, 0x980e2914128b1ba]⟩,
   ⟨[0x6a2023f84de44cb0, 0xea995754247a7d5b, 0xd850d17999102324, 0x126fdfe2a906b038, 0x4c3b3696577df168, 0x9d3a9e079e3853ea, 0xbc21a51e40ace3a1, 0x165065a3c51dd652], [0xf5b255b9e4bbd96b, 0xc1e91f803d94f9d6, 0x7ddb5bb784768fce, 0x33f7adf65ca35823, 0x3667e17433097882, 0x5fdc3ba18f241dc1, 0x41f5c737172cd7fc, 0x64d4116e7986fe8d]⟩,
   ⟨[0x2ff0f5058c89ded4, 0x6507852bbbd0897, 0x628865211fad2908, 0xb8a1362e9f5f4d13, 0x83075fe66e9856fd, 0x6b0ba277ccedc4d, 0x9b81b5152750dd5, 0x12a96bb0cb59d8f1], [0xca4bc3a5db43958b, 0x6456c11b94c12e88, 0x7efa99ffac330ee6, 0x56973cadf40aebec, 0x62522e6bc5d73a2a, 0xf4538ca890f4378b, 0xe5447fcb1ba585b1, 0x6c3f50c218376ab9]⟩,
   ⟨[0xc0156eb6e1720fc1, 0xe0f821eeffee4ba3, 0xc0b4ef97d0b530c5, 0x3bb1161a47cdaa, 0xa5837856464ec84b, 0xd65ba195e0e63a97, 0xb22c0f5fa375112f, 0x18d81698a7f7bdc1], [0x5fd3c5e591e78a50, 0xe5ee4eb997d10a66, 0xf74bd0859fa305da, 0x519bc6765485e038, 0x7d3e6e21de116ece, 0x10d68b8c4221f32b, 0xe41d74a9565c1614, 0x191561dd2e728554]⟩,
   ⟨[0x527cd25501c9bd19, 0x1879769913fa68c, 0xe9bf7700d76b7fcb, 0xcea4ee4102b92508, 0x739154cc34d015a1, 0xd1f1f1ac44c3f451, 0x1df5a4aa7905a732, 0x81afeb8b67f7057], [0x8a0edec0671d0f79, 0xe99b4b79442928ee, 0x4a722ac72c1557b0, 0x95070ed603021bbe, 0x9e1e6418672c3f05, 0x8733726389b0c1a6, 0xb67b8831008a3b13, 0x4f44986bb059be83]⟩,
   ⟨[0x9a5b3c92cb15c97, 0x43e1b906f9b4777d, 0x3bab3a6466a5bc88, 0x276632bb7d82e655, 0xd09388d1d97d5ce2, 0x26b0339dca1248c5, 0x5f0a24111f2a8bb, 0x1f498ebab7f68a8a], [0x265c09cfd0dd019b, 0x1a0fe11958b91c2, 0xf55d56ed5a389069, 0x9e5de2ca1a18a889, 0x4f4c9d39065a1799, 0xb5cb916f7213b184, 0x1941e104b5d0926e, 0x6ec375e82e03cfb8]⟩,
   ⟨[0x80f444edb57b1b5d, 0x2e5315e77d4efd6c, 0x9272eba7868cc07f, 0x19ec814d31a8ea6e, 0x9ee92d03f29fcdbf, 0xdbf8ab6b2e8408c3, 0xa0e845fba103d807, 0x2a6a6b311ca3992e], [0xf58b6f6c1c391d76, 0x9e385bb213687c07, 0xf6ee205b6baebbf5, 0xb2d7d412a706c6c5, 0xcfe32a97cd887640, 0x2783cfe9d93a1136, 0x601de429f4d34fa7, 0x1e433bb86ea85459]⟩,
   ⟨[0x8bcb9073d618ad6a, 0x84cdbd19996fe814, 0xb1f5ffdb166793b9, 0x5fa22badede62fb4, 0xc1c1c3947019c1eb, 0x7a02619108aa77f0, 0x26ee69da32e5855, 0x5356399780b81284], [0xf46c064f5e0b9abb, 0x39332d2ce8a0fe23, 0xbd50ee1c0be9ecc5, 0x9b4a4cc08de1b166, 0x4bba7b7b56713aaf, 0x2ca8ef64f1c76c54, 0x1022d9f4ceb309e8, 0x4f1375bc15a18d10]⟩,
   ⟨[0x9cf4eba9198331c, 0x232ca52d7d60ea39, 0x2c4780892fc3a96e, 0xc7f9a36c80cb5721, 0xeda98a0c2d8802be, 0xc74130483c41b152, 0x479df24fa74d701c, 0x7a92c3f151869d52], [0xc1ab98b3f00ba577, 0x5a687ba4b7778354, 0xf5a77b64157fb1d2, 0xb9f746ae81bbafee, 0xba33ebdc1bee9d2d, 0x6fe41bc1d046655c, 0x2a8cb913acc3a496, 0x7cbc537d6ac2b374]⟩,
   ⟨[0x55c19b5e538ed4b1, 0x6aa0e45661891dae, 0xd77ca0c2cd971ae7, 0xb23434f770294f78, 0x3b87d75914d25513, 0x2a37cfd28b94f435, 0xf63b09623f3f32ff, 0x6387efb998b5916a], [0xb2826971f35951d8, 0xd1ddcb0a996c5518, 0xa5e88b2d3669304a, 0xea5685bdc53dedb7, 0x2dd72e086a446fa0, 0xfa2689efea074ff8, 0xc3430bbe7a8302c3, 0x98a5073e98d1cd5]⟩,
   ⟨[0xcf5d95c244ee6cc4, 0x5d5278b5ce04027f, 0xea0f4d01c1d26e0e, 0xa79154f3ab2e71fb, 0x27bba6eedc59126c, 0x269eb8b7632bee8f, 0xd589400853bb6c55, 0x7698da12222dde2b], [0x826df5a3b5d03bc6, 0xfaadad56e126406f, 0x2ec70b6468849d5f, 0x9ddf89911d799e78, 0xb2aeafc5d4de8ac5, 0x7a167f8fe114ad71, 0x9dcd07bc13aa2edf, 0x531a5a3d6651bd12]⟩,
   ⟨[0xde7ce2ad82e7c32c, 0x2c9908ea2d0742c3, 0xda528d69056f7c69, 0x1fe6e3eb704bfdcd, 0x9c1eeddf79b0f586, 0xf6f81fb481e83f6, 0x17db66c0e007286e, 0x3607ec131802cd99], [0xccb2b85c6f216120, 0x7b9ea544e51c2036, 0xb14cd3615428771e, 0x978c458e03c6bd02, 0xea43c163eaceb25a, 0xb590d2d76b85cbb9, 0x10b8eb8619c45d61, 0x2e5af3e0a1fc40de]⟩,
   ⟨[0x465c626190d2ea3e, 0x6b10583c3e11efc6, 0x1e3a113224958f6c, 0xcb895c3bb3336ea5, 0xca995e605f89eea1, 0x725fb30b199719b0, 0xc6897e80f8061d92, 0x56680a532cfbfb75], [0xa770755dd13e5e25, 0xc33f71b0fb78d704, 0x7b2322e7a101b288, 0x3ed4a92c1075a9e, 0xbf4359844b8cb0d4, 0x6c61ddf360f8188c, 0x760339e14d04ea1b, 0x18b7fe1346ce38bc]⟩,
   ⟨[0x7aa91562838c109e, 0xbbcae1a4ef910eaf, 0xf3cad5ada3f53427, 0xf8fa6f08aa559ee9, 0x35df7aa59b872c03, 0xa3c67898f1c0b48, 0xe4106f6f3b1f9abd, 0x51ee882b7daa3ea0], [0xfae35fe0a97c031b, 0x265cc7a22fb341d9, 0xf99d1646f7515098, 0x3630dcfca70c3101, 0xd492ae5984a7736, 0x1e46acb5a65956c5, 0x87e193d09c39921b, 0x1aa85a4b71406e88]⟩,
   ⟨[0x6875f76226b55827, 0xc6e92cb628c694f4, 0xc3da1cfb57e83283, 0x2dad4640fc91e16a, 0x27238edf079e48fb, 0x8262f37e4676f002, 0xf1df56857e20a097, 0x710b88301d647dbf], [0xf521938f55f50ec5, 0x86e72c2d5a65ec57, 0x72e72e109e067563, 0x1c572f372941350f, 0x234f61327e00fbf, 0xa33ccf1ae0605a65, 0xfdb2433a9be4c255, 0x18374cebdd7e45cd]⟩],
  [⟨[0x9e00fc840ceec3f3, 0xa758aa230d2268df, 0x5c9b3794d36f482d, 0xee3f79cfe90303e7, 0x22573217d1bb3495, 0x6d5c2063d2242a7e, 0x339bedb8876a074a, 0x6326870395cd5aa2], [0xa86b4ef91b0cae7b, 0x420985b43db7d12d, 0x99a3bb296b1ceed3, 0x2113b00f3569fa9e, 0x2c5924208e8bf2d8, 0xf74dd63b00db962b, 0x8f0523e59758035f, 0x4ea1d81a448f83c0]⟩,
   ⟨[0x1183057aab1f908, 0xaf94ae9a324ac197, 0x6bf3b50d23710a59, 0x9b65a594c39a3428, 0x345e5c522210c08a, 0x6d728dd623216fe9, 0x9d09327b2e4f42c2, 0x47504f6209505f44], [0x24f03d12fb3ad9b5, 0x70e8de3c439f3e25, 0x1fe89f0eae5a62fe, 0x3b518a064b98cda2, 0x725ae18cc70ff3f3, 0x45765c3502ba4952, 0xbaa6488da7c32e49, 0x5d277639c5a2e6d7]⟩,
   ⟨[0xe3818693bd6f5df9, 0x482d93578307a5ad, 0x82b507f2323d211c, 0x9e382a7192967d94, 0x4327bb2ab3bff973, 0x911ff5f4ac87d95a, 0xd21289613bef8bfb, 0x43e2ed58b8fa196b], [0x74359d2cd5d4f65f, 0x7fe8b0d1401fc20d, 0xaa9c0ebcc012734a, 0x54bb07edbc05e810, 0x9744ab894c9b39b, 0x1b29e64a47e3e6e7, 0x82082f863b728bb9, 0x5da4af1de159e167]⟩,
   ⟨[0xd838425ef80e5a20, 0x1701f0f47aa52e54, 0x2bc3e0243b0ef4d7, 0x13ded370bd8c9c7e, 0x93a9bcb03853e414, 0xba7528320b81bba1, 0xbe267ce569f51ec3, 0x2dd1339181d034eb], [0x78e02b77eab11b6e, 0xdc2c14f2d67c3b1c, 0x3407014c87193f9f, 0xa5187cac580d2a6c, 0xa76ad3cb254fb63b, 0x16a7a635fa5ec4b7, 0x8b1e623d358a7e00, 0x12ded0aee428eb45]⟩,
   ⟨[0xec93ff3e42d2628b, 0xf3e153f84d6d15ad, 0x9c1d3ee7b269afef, 0x1dc9ed6b2596d285, 0x1d99a25fda973d5c, 0x6d0cc657575656a3, 0xb5fbd5739be5b314, 0x2d0af3814bcb4f6b], [0x813c697542992580, 0x5f35f31bd9c88b9f, 0xd62ac131f1315ea8, 0x6898e20f20aeaf30, 0x85a2c8af733a3518, 0x60bb0ae042dfc623, 0x5be9c6827f5a3320, 0x781531140795b27b]⟩,
   ⟨[0xeba2445d5bfb1a8f, 0x23ca73dbe3a37647, 0x1d41c8ea09d6a2e8, 0x837cb597b9ca389a, 0x66b0a05a1daf5ef4, 0xd1ec0b2b79720dd3, 0xa4ebd63334ec20e5, 0x3cbe3c4b96cb4933], [0x5dfbca31eab154bd, 0xa95532f9086b4b02, 0xd6d5a0140ece8177, 0xa2bd7647c1701606, 0xa051332728947fd0, 0x941ade30fb8d79a4, 0xe793b659a5399fc5, 0xcba91fe7a2daacf]⟩,
   ⟨[0x6ede3a1af5d6c8a5, 0x18c47efc5b8c138e, 0x997cb33c7b418d78, 0x5269b9b083e40686, 0x85054ddc8a20de43, 0xff62c389485bf29, 0x8d769d160ef78b00, 0x53d4361998b54d2d], [0x7cac1c68c6b6fc2f, 0x4f4fb16bba127b4f, 0x613b15efb003ee2b, 0x51d36b347121ba05, 0xa33e6c3670c1bd53, 0xd786268eef75fcd, 0xee9064ec425a7776, 0x640f4fe31b720ca1]⟩,
   ⟨[0xd80e5dcde5eb014, 0x8b87c2c5fb6f0966, 0x440e812f7f7a8b3d, 0x4129e117d930cd64, 0x19224a1fbb1ad89b, 0xff6582c11b9cf977, 0xc279a282ed4b99f, 0x5985fa3261859fe3], [0xe807adc1fd425835, 0xd0f0f7c652cc2afa, 0xf3b06f655c43ecc0, 0xc308696a5f15a3d0, 0xdc3aa797174601, 0x8fc6b2de81b1a96f, 0xe4646a22071b8f4, 0x4d8b4da5e92b7e14]⟩,
   ⟨[0xa371921925133e4d, 0x76ec51481211714a, 0xb5c0ec5675c6b433, 0xe1dfd7b314240932, 0x319f8e99239466ca, 0xa6d0f9ec35fed9c2, 0x19fc4b44c41f492e, 0x36d24698b8cf87f2], [0x789735c0c74d1aaa, 0xc0dbf5f6b21c410, 0x157deb3c4dcaacf0, 0xa7d53a569826fe13, 0xb4f2e8848e151d58, 0x6cd528bda51fdece, 0x7ef7fa0e6f669dbd, 0x5250d79d666f1f7b]⟩,
   ⟨[0xc33d5cc302cbadb6, 0xf51c5abfc56345d9, 0xb2fed493b5e86ce, 0x86599a1d480d2793, 0x15ca7826a8f96cb6, 0x577868c5da5d7c0, 0x292603bf8b7f740, 0x49c31fb585445ab2], [0xcff51bebefdb9da0, 0x1c552a239da2096c, 0x6fac5d64416fd3d7, 0x7f6cd9a75f5f2d95, 0x98bd5c7f1e91ab28, 0x95132d69dac6ffa2, 0x5611638c4c6bdc19, 0x79320e840ddcbf9e]⟩,
   ⟨[0x2b07bcb228ad172d, 0xfbd855539aabaaa7, 0x466ff9b8715a69da, 0xa5ee097a5df8355b, 0x5e81ef3694527a84, 0xfd8285862e79307, 0xf77154c67a0154d8, 0x706ea85717f87d8c], [0x696280b6edf504a7, 0x8e2fdf940d58fd9e, 0x4582c0650a6463df, 0x5dc2decd68b7389b, 0x98d77559d2cfcf3c, 0x4e652c83e277a1ea, 0x81fa94f722b153dc, 0x6b86c4cb27250748]⟩,
   ⟨[0x31fa2a569050fd42, 0x72feacd1fdcefa17, 0xdc60ed6384a8f817, 0x584dadb824332d2e, 0x44d7cf2e3c47eb6b, 0x905e2d0e9a6bc268, 0x501fe4486ef013be, 0x733e11da999445a7], [0x7ebf9f56b4a90b6b, 0x526d56854364f578, 0xbf9b3ef7be950b53, 0x6c5eee0a73d295f8, 0x4a79f9a73f9cfd38, 0xa8c15d285c348121, 0xdb33882f7bc3eea7, 0x164b6c981c95c7db]⟩,
   ⟨[0x99a0b2f1876e8e37, 0x9540376e7d53142d, 0x9d87809d6f20c705, 0x1305c33bb0fde5de, 0x172dfa23df9311eb, 0xc55a603cb8b9a7ed, 0xf4426da9398cddf1, 0x7ee621b093395515], [0xbbd0b9e97190296b, 0x244ffecc817e9802, 0x572b5387071d598f, 0x8314ef61d2b681e2, 0x8f8ca790639b8713, 0x81fd3c40f265f881, 0x5ec87ea78db97d0, 0x7c279328e4cb4b7d]⟩,
   ⟨[0xf385f057a3b4a536, 0x14c2337f4844689c, 0x3523f9a98b5fffb0, 0xf5e10a66a5e078c2, 0xc5ddd8699eeac34e, 0x16348b68ed24d386, 0x90992d06ebb0a580, 0x1bd2db047485a9], [0x871a178bdabc2b30, 0xec9674ec6b5f7dc4, 0xbb3b1c57ac23e5b0, 0x6dbb053044a658a1, 0x28b031c961e53517, 0xc1ab8ed564182250, 0xda3fe27ed1333b9e, 0x4652f37c71ad4520]⟩,
   ⟨[0xb9c2f8947b2186cc, 0xfa2e5be557cf825f, 0x71a9c72326232d47, 0xd990d5d4eb1f6b74, 0x526a74fee869587, 0xb29047b179f385e3, 0xe9555eb37588aabe, 0x379d31bae8edc982], [0xd1354749dec275f9, 0xdc58001638eaac97, 0x23b6f54d894811e9, 0x8a2356f8838b2ae0, 0x5ecbe0750332f83f, 0x1de54b95f248814b, 0x3b4d634d963938ae, 0x4c8888a57a5f8cb0]⟩,
   ⟨[0xc6a93408866b8e1d, 0x33dcdeac3fa8ddac, 0x7f21f9115dbec7a8, 0x4c54d4cb888cf7c1, 0x3fbbb373b81e81c5, 0x2946b9bbc50f3415, 0x8ea5487b72265924, 0x3d570399bdebbfec], [0x86c128ff1939a079, 0x4b37e0819509f043, 0x429912317209d23f, 0x22d2d20768a1134b, 0xa5af7a3834d6a734, 0x752a81902ed7fcbf, 0x11cc587080fd1d18, 0x1d9acae3d189b4dd]⟩],
  [⟨[0xe47bfd7fbd6beaa4, 0x6d4e6c1256a13cbf, 0x66944291955e8cfa, 0xa5d03765e17cb432, 0xb39957cc87350701, 0x5442d545c31f2d8b, 0xb260ac7da27161b7, 0x633dbfe5272aa5a0], [0x6273daa0cc5c98c5, 0x18117a87f7f5ee34, 0x70638cfdffc6434f, 0xc3f386ee540fde06, 0xa97159e3d18b02f7, 0x10e18495eb612449, 0xd572354c3d9e5a31, 0x2642e9f29a2301c1]⟩,
   ⟨[0x1048593442143bc, 0x15299b112b5ce6c, 0x7db0d76f5f5aea95, 0xe9e3da6fd2fb7690, 0x6e4c64ab8904ccf0, 0xdcbd06cca49b6ccd, 0x7258a3fcb0abb0c1, 0x7df0e9459fc214b], [0x58804cbf1e7cc675, 0x26cb78c2e80cfbf9, 0xd0a31af09ae03e99, 0x121f1d3d5c86a88d, 0x421726042507ebb7, 0x1c0477822bba126b, 0xe85c59c8102027f2, 0x461d9c09cd8232e8]⟩,
   ⟨[0x97b3842a200770de, 0x4647f3fe77c0536b, 0x37cc9562bf7476d9, 0x90d29c5c2dea54a8, 0xcd666644c21bf888, 0xeae36f2fc5cf18c8, 0x903d889afd93f2c5, 0x37add7ee5f67df4], [0xd38fa2dc995ac5d0, 0x69d19ea198a2a549, 0xec7814c75e8f6d58, 0xdd241db2247c0e89, 0x5421be26e5cf278b, 0xcf675e38edacba69, 0x397356a121f9c045, 0x317c547f49e0bf07]⟩,
   ⟨[0x2eb59913f5c55aba, 0x805c61a199485e9b, 0x94d81c7eb4c7cee9, 0x2dd3516fa9dee0b1, 0x4c59cc213353561d, 0x375c19f35ee9f7b9, 0x89de4e4127fc9486, 0x68487aff24995df5], [0x15b98df06d549cb6, 0x4b884ede9b4544ba, 0xe2cea2061b3d89c5, 0xce8945d22648786b, 0xb209b7cf1272125, 0xeab0849a2baff0d1, 0xe5f18031e971f89e, 0x4379379c766b7a2f]⟩,
   ⟨[0xfc10c84729b51fb0, 0x148ae7af1e012f1a, 0x75a5a6fda20d8dbe, 0x30148fcb8fa0842c, 0xa64e438126f8253, 0x72c3c042aecd60d4, 0x6c3589c838a21dfb, 0x64ba45946bb0d5d0], [0x6e818aa1d464168a, 0x96c68c331743888e, 0xd52c73f0672ec8e, 0x56f9e940a8b446e9, 0x68f43782c0e008c5, 0x7c0d8bfe96201134, 0x66c97894b3f5942b, 0x8579cf989be1e99]⟩,
   ⟨[0xe863c3a92828506b, 0x18c6e29d9df36cd1, 0xa2df177dc2ad4dfb, 0xd0e200a208b5f6b6, 0x6be0af7577b670db, 0x750e92fdbd46eeb0, 0x21e21b3787f96ad1, 0xc4f884ec89c7708], [0xbccd3155630af761, 0x769f9ced19f3528a, 0x2572864dbf9cac65, 0xd276411cf43268f0, 0x12d9fdcfa2c48843, 0x320a13df7aaf1cbc, 0x3d4dcb95630820cf, 0x5f471e2128553384]⟩,
   ⟨[0xc14f1d4d9c6dcc7d, 0x9cea8e3abc2ea2fa, 0xd854aec04f1de28b, 0x5fafddceb0ef66e2, 0xd5baf034a190adc7, 0xfeb3de5f052d641a, 0xa336fd9a51f9f744, 0x11e7de0f2e516669], [0x46b240270cd862cd, 0xdb3ce4a222667c9f, 0xdf1bd2a28e3438cf, 0xc20e6ecb94e0825a, 0x86782224edf3c36, 0xcd547458d86e0625, 0xed9ffdfac1c8975a, 0x7709a34e60ff6b18]⟩,
   ⟨[0xee6f55d70d6ef8be, 0x6ba29662c47749f3, 0x505bebb2cb5824f0, 0xdaa39e017ce139af, 0xc73ffe67ba4eaaf5, 0x1ac8354f1216fbc5, 0xfa600d707c029b38, 0x1def1e98b77e8711], [0x9ea77fef2199269a, 0xcc5f3e27a4b5e402, 0x998bf96ffe20dcf6, 0xcf543a7154252277, 0x9d767f8771a66685, 0xe1aa8f5860b1ec4, 0x3979c3949437e2d0, 0x55cbc282855c635c]⟩,
   ⟨[0x798d8087db0f28bc, 0x80be50e690209d22, 0x6b14a1e169ae2a50, 0x504ad87b21b5a02e, 0xbf92b62181938dd3, 0x1a209438e927a712, 0x3dfc548a3c613f5e, 0x1e6e3311a3c2cc7e], [0xe46ac0c4a91bb2b2, 0xac89bb09df9ba7fd, 0xc87555dd04403839, 0xb1460c86c6bb4379, 0x3ad253ef5fc6e594, 0xb66b2fb7393cb89b, 0x1411b9fde1bab087, 0x84dd6cd22c9ce4c]⟩,
   ⟨[0x676d50eee480ddeb, 0x588ec4bbd14909d0, 0x509a74a7b5dd3fc6, 0xe616eef3aa6870f2, 0x76f235d998c5a7e5, 0x7a925c5577ffb2e6, 0xa78a158955213b7, 0x7b068b928fb60b7], [0x7610c82150380e64, 0x6e7c80ce282776c2, 0x9f67368aeebd3250, 0x932f6e9985fb7863, 0x41fcc562924a519d, 0xc099de16b499b4af, 0x10764d48ac9c7e76, 0x66c85bf9a1babce6]⟩,
   ⟨[0xb080963ff5cb951f, 0xd9a5580b2a16f27f, 0x5840499d4fcee6ed, 0x5f4704d64f3b33d4, 0x2a1399382256a05, 0x5713e01992365a7e, 0x4a2f7ba66f38944b, 0x14b58d5ba47662d3], [0xc219e3005900efc8, 0x45707a504fe2dfc9, 0xce4facd6863df90, 0xedb31912c6bcda9c, 0x3e24a0d685b6cf7c, 0x6365acda358ddf3b, 0x10fd0871f2cb0823, 0x51d58d3d1dafe4c7]⟩,
   ⟨[0xe5b64ef4291b51d2, 0x70c52edb1a7a445d, 0x758d0dc9c1e8df63, 0x55328ab30677fe82, 0xaf4221ff7f3a1866, 0xde1ba1098c04e9ca, 0x26f0d0864c577d77, 0x6d5d3fb16d494f73], [0x3c0153eb451f8b8c, 0x6a9b03d15fd3ed6a, 0xdf442c11175180c3, 0xb205eb514dd99376, 0x28e9c5ffeb489de3, 0x225ceb0944766908, 0x1db1f7e7eb193b68, 0x364b9e6bdf27292c]⟩,
   ⟨[0xdc6e723d728f33a8, 0x8abeb28a3a0930b3, 0x584b13cad024d8b7, 0xdcdc5bb7dbde780e, 0xa2ad762b161d9801, 0x46ebc8a96ce5f18a, 0x97a0ba527eb1cd22, 0x58bc4daae22d91d5], [0xc06f0b259f01d49d, 0x8236f2ad3533732b, 0xe3df9bf57c6c24f4, 0xd60fbcc76aa1e1f0, 0x8ddbb9a2b70a307f, 0x61bb56b1c6071c49, 0x8d3446d71abf19bd, 0x44af2fd846387989]⟩,
   ⟨[0x25aceb4c86b1b8ae, 0xb5b0a7e367cfd1aa, 0x87b3c5cbb0f063b4, 0x7f4292746f03be41, 0x412836e0d82d7749, 0xd9b1603b535225cc, 0xcbf1a8271590b41f, 0x47c32d83fe159bf9], [0x7a147456369026e5, 0x4a21dab12691a87d, 0x6d3ea461818c2d, 0x56006bdfd548a261, 0x8632a9091d7da713, 0x859839dd26e387a5, 0x41e4d9d97ff52cf4, 0xe21329f85a8f21e]⟩,
   ⟨[0xdf4af1e0626902ca, 0x339cd3cdec50a5ff, 0x44b2abba98dd7a01, 0x47a4da46cc7ac1a8, 0xa69253411ea0f3a8, 0x46f82c17c23aa0ac, 0xf0394e44386897aa, 0x601f9a559d5aa759], [0x194f939fef324e1e, 0x188be442e2f35782, 0x4b2fa7c15683b3dd, 0x9f2737a644300367, 0xb72f7e8aafdf269e, 0x5ffd87557a8a5232, 0xa1641cf043299a6c, 0x1fda30d5c4d1e057]⟩,
   ⟨[0x926373c4d94b7dd2, 0xe9882ca7faa5c280, 0x358f82f6c1d821e2, 0xdf9818268812649a, 0x96ed450710d267e1, 0x72253bd1f7df2d84, 0x78f13c381f09bc6d, 0x23c79f015d1f353], [0x5e357e1a65e1924f, 0x827a8c8318cc9432, 0x9a2ff5d68696c800, 0xde825b6ae26ab439, 0x34c74673a646b303, 0xfbfd424e50657c92, 0xaad263d91f96eec2, 0x78d93f6c42ff59ec]⟩],
  [⟨[0xef807eeb4accac90, 0xea3708ec83efefd0, 0xb3f56c3dac470aec, 0x467461d4bb6b4a8, 0x9e2d3152455704f7, 0x957f5ff695097282, 0x1bba5ccaaeadbfbc, 0x5d64a8b0829f221f], [0x63b30e25dc012583, 0x739d6c4d6e8e7e4b, 0x4db4ba8a108f21c6, 0xe4d0991d8e217429, 0xdfec43e747d489d, 0x759c611c3f6623d2, 0xbb3166ae1c16c550, 0x1097fe4146e761a6]⟩,
   ⟨[0x5cace9282774936e, 0x7d88ce3c97a7bc86, 0x7b5f9d752732b6c7, 0x31e096d2a9623a78, 0xed0b1a7f8f2a6c6f, 0x47f31ac08a38c329, 0x65fe20b48ae3e440, 0x5bb3df728ff8d87d], [0x5c361d56394af7a9, 0x37a958024a967882, 0x2037a09c3d24749, 0x623cf773a9eb6a87, 0x4d09b042cc9980ac, 0xc1ef17ca4c258646, 0x54c55d4ea522fa1, 0x756b405d1459d247]⟩,
   ⟨[0xc88b5d92ff7bcbb8, 0x37e62c2a33bb4d7f, 0x63dbecfc93850d2e, 0x282e18965daf279b, 0x90226257b2fd8fa2, 0x68215f8c69a65468, 0xaebf43d556338a49, 0x35a40a038d7d063], [0xeeee462e61c724fc, 0x660f015ba58c2b0c, 0x627e0736e16621d4, 0xd423ada85d724668, 0xf98ab83a6b777c4c, 0x4f5fec825dc968ee, 0x4ac7caaadf9be0be, 0x6f7e06dccadcf93d]⟩,
   ⟨[0xcf90cb74de36d484, 0xd511a70f0ed61eee, 0xdbf5689e33798a5c, 0x81900cf3daa5d75e, 0x854460aa84ca34c5, 0x3c00e7b539220c74, 0x4e7ce464ab33422b, 0x22221bd4ab536b00], [0x718695f4e50dffee, 0x466d642cd103c522, 0xa01b70706ec72083, 0xd29c046dcb7675dd, 0xa2af1025605f249c, 0x3bd414bdea9111df, 0x8dcec5097d037c23, 0x750e0282176546f8]⟩,
   ⟨[0x452c27ff824344a7, 0x85e64cc2ec399a05, 0xbe15d09e3442039c, 0x875022bb6a323861, 0xd984bf9d61866cc9, 0x4007f668ee6e8271, 0x90e14ccf107566d, 0x8c2354a1131fcd8], [0xf9c862998f5fff23, 0x97788808ac995497, 0xbf6cb8b5d43fdcb9, 0xc75bd147b72dfb91, 0xa537a636e15359c6, 0x313458f393f6292f, 0x96b68662bf3ce59, 0x5618acc8275bb1a8]⟩,
   ⟨[0x434dbad76dd4f47f, 0x7f24804b93a13416, 0x54864638dcfdc8fb, 0x94d15aab8dbb2a99, 0xc60d064a3b08be5d, 0x8d52af0377113b1c, 0x795f3549e649649d, 0x6c50a7b3a2f7b890], [0x1243d102ba7be66c, 0xd52a9d6524a4f3d5, 0x84f3a7d8d940b299, 0x2d0d05610a6c5f96, 0x6814730955af49e6, 0x1ad2cc292d484160, 0xd983666441613c8c, 0x116d32d9e1444926]⟩,
   ⟨[0xbfb347e11fc8967f, 0xab2f0de9afd35e6a, 0x77c822b93d717b63, 0xba49f6d5efe76953, 0xc4ff8395c3729c1e, 0x5e5251991792651b, 0xef736f1e220793fe, 0xc1364deada2df7c], [0xe364a0295e0a04fb, 0x78cf4cc02a1cb8f, 0x2c6edcec884eb5e8, 0x361e83f134da48a0, 0x543fd798ae22ee07, 0x80a0521a72a9d550, 0xceeb2763d5d883de, 0x4633ae13744c8616]⟩,
   ⟨[0x386138c2efc180bf, 0x62884c835025c16c, 0xc846079f3aef27d9, 0x85ac6cc58815e30e, 0x45705559d26a2bd0, 0xef1649a0eedb70c4, 0x2596f146e4641efd, 0x61e89f8e93c7b04a], [0x6ebd7c9f071ca85d, 0x5c9951ae1c15acd1, 0x9de96a7c8ae934a1, 0x4b32645d481d190e, 0x8d0e2b25a79c0b4a, 0x8ef7bb2acd74da50, 0x9481d2db07920cc8, 0x1bd7a22e8736c183]⟩,
   ⟨[0xd4f2750064fcb568, 0xd92cbb705c300e98, 0x5a971902caa8d9b9, 0xa5542df51c4824c9, 0x7b469d1bc84d2ccd, 0xd3fbfebba2566f40, 0x89511f69e8fa73c0, 0x6ffd125bb162f797], [0x961c9532c0fa653c, 0x7bd198bdb0c77a, 0x1853303beefc3be3, 0x6d50323fc4a33e36, 0x9798c97ae367e4c9, 0x9e146b0712a538a8, 0xbfb3e8194996d58b, 0x5438d6f69022e072]⟩,
   ⟨[0xc58b1061dd4e810b, 0x7966e96a8fd29c69, 0x7e2d9fd42e65f9b6, 0xa8f68084fc48055f, 0x545cae012dc5a983, 0xc9d198c8a2596608, 0xf9d9bf5d4208b520, 0x1c0c3f5a7e6883ff], [0x6d7b98305cd4d87, 0x899a60e89e9f9f35, 0x1465ead55119aac1, 0x3edf1e360f329991, 0x86bcb01ea0646c43, 0xa6ef27f3ef4ebceb, 0xeaf04ae654eb8e6b, 0x48051e6208227047]⟩,
   ⟨[0xa84efda5f245f1e6, 0x49759ef3eb80f18c, 0xfb8a3a4b1142ee5c, 0x62907a8fb9ee65d6, 0xc5fd7dc9d68d862f, 0x1f791d0fe1c81bad, 0xfed4dea38c4757ba, 0x41a50e32fa4c20e], [0xb8f7ee7af454e68e, 0xb68f9599cbab4836, 0x3fb9c650f1872586, 0xf967c7689fddef61, 0x8a2683af70e86e8e, 0xafd29242e523ad78, 0xba4eeca59dd43a6c, 0x374478967bb2e1ae]⟩,
   ⟨[0xe5378393f86efabc, 0x336470ca45f692e9, 0xc5f0022c66e0fbdf, 0x189d81d53ecd3196, 0x416d97cb771f9c1c, 0xbf2b6b77223448f1, 0xa4f6355abe42a9a6, 0x1c15439ab9956aac], [0x20ca3197dbfc8b8, 0x25a1dfd15c7e4025, 0x5cf6fad84d06aaa0, 0x8221bad8ac1b211b, 0x68e7dba3ae4c7f7b, 0x4c167fa9fef7cb4b, 0x207a14b8a34935de, 0x1476ccbd645a14c2]⟩,
   ⟨[0xf0467d8954e05676, 0xa1987e17e04530ff, 0x1e3010c22e3a997c, 0x4001e89febef74a7, 0x60c6556632572d28, 0x410c49d0a562bf8f, 0xfe591ad0782ce10c, 0x272de301c3016aa6], [0x7aefa3f7d3fd089d, 0x5141e3cfc68ce61e, 0xec6f871e919ef2cb, 0x9e1f2c4fb15754ca, 0x4e053a03b367a8e1, 0xb5447bab7a946a07, 0xca9d154a5934ac68, 0x2c24448b9dcc05a4]⟩,
   ⟨[0xdddcc6f77230b721, 0x3ab7517bd59a4d7d, 0x202a42773e75a94, 0xeb9cbb02f45e584c, 0x879f20404d193d46, 0x897a3d49fd5ccec5, 0x7b22d3ad5e795234, 0x103a74b935e6ea1d], [0x83ad405ede267f29, 0x9c0750bccd4ef83e, 0x1192b08caaf8c955, 0xd983183c93618dc5, 0x3f142e9f51fa4692, 0xf9242d3ea9e77124, 0x44f55eac733efce, 0x3fce259ebfb0e74d]⟩,
   ⟨[0xb4a72c274e061902, 0x46d496858271b5ed, 0xe640cd1cc565b666, 0xfee64a698c432368, 0x9b245fba7c9309aa, 0x2489bb011fd0dcd7, 0xbe612e5cb4adb680, 0x7b828c731905845a], [0xb205c233ae7e8e5f, 0x67c2ac050dde4865, 0xc29416f4556bceff, 0x3a94801de7de42b2, 0xc79768db8e9195ad, 0xf701eae5702232bd, 0x7093880e769e819e, 0x7385cfb85575fe1]⟩,
   ⟨[0xbe89a89f552d7645, 0xc1406b554c7c1f2d, 0x123a5bb39c11b663, 0x1925904a275b4f27, 0x94d3368711f1a12b, 0x446fd57bd3f31833, 0xff6ff5da29d4040, 0x35355ff6ae52039a], [0x74b055757de14b02, 0xd2e7c9637a47b576, 0xd391e9de99d0433, 0xa4dc392950cca807, 0x81694449a2af3088, 0x9222e26555474a7f, 0xab5c44522c2ad9ee, 0x5810784df7ec7c2a]⟩]]

/-- `lut_cmb[j][k]`. -/
def lut_cmb (j k : Nat) : AffW (List Nat) := (lut_data.getD j []).getD k ⟨[], []⟩

end Gost.Ecp_tc26_512_paramSetB

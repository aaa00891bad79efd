/-
The file utils/years.csv as it is committed, one string for each line, copied by a script.
-/
set_option autoImplicit false

namespace Verif.Spec

/-- The lines of utils/years.csv. -/
def yearsFileLines : List String :=
  ["CE year;BE year;K;A;T;nM;dM;nV;dV;Asalha by Calc.;Asalha in Calendar;test;source;comments\n",
   "1970;2513;703;508;10;6;;44;;1970-07-18;1970-07-18;OK;myhora.com;\n",
   "1971;2514;496;371;21;7;;45;;1971-07-07;1971-07-07;OK;myhora.com;\n",
   "1972;2515;289;234;2;8;3;46;;1972-07-25;1972-07-25;OK;myhora.com;\n",
   "1973;2516;82;97;13;9;;47;5;1973-07-15;1973-07-15;OK;myhora.com;\n",
   "1974;2517;675;663;24;10;;48;;1974-07-04;1974-07-04;OK;myhora.com;\n",
   "1975;2518;468;526;5;11;3;49;;1975-07-23;1975-07-23;OK;myhora.com;\n",
   "1976;2519;261;389;16;12;;50;;1976-07-11;1976-07-11;OK;myhora.com;\n",
   "1977;2520;54;252;27;13;2;51;;1977-07-30;1977-07-30;OK;myhora.com;\n",
   "1978;2521;647;126;9;14;;52;5;1978-07-20;1978-07-19;FAIL;myhora.com;adhikavāra is missing from the calendar\n",
   "1979;2522;440;681;19;15;;53;;1979-07-09;1979-07-09;OK;myhora.com;\n",
   "1980;2523;233;544;0;16;3;54;;1980-07-27;1980-07-27;OK;myhora.com;\n",
   "1981;2524;26;407;11;17;;55;;1981-07-16;1981-07-16;OK;myhora.com;\n",
   "1982;2525;619;281;23;18;;56;;1982-07-05;1982-07-05;OK;myhora.com;\n",
   "1983;2526;412;144;4;19;3;57;;1983-07-24;1983-07-24;OK;myhora.com;\n",
   "1984;2527;205;7;15;1;;1;6;1984-07-13;1984-07-12;FAIL;myhora.com;adhikavāra is missing from the calendar\n",
   "1985;2528;798;573;26;2;2;2;;1985-08-01;1985-07-31;FAIL;myhora.com;\n",
   "1986;2529;591;436;7;3;;3;;1986-07-21;1986-07-20;FAIL;myhora.com;\n",
   "1987;2530;384;299;18;4;;4;;1987-07-10;1987-07-10;OK;thaiorc.com;\n",
   "1988;2531;177;162;29;5;3;5;;1988-07-28;1988-07-28;OK;thaiorc.com;\n",
   "1989;2532;770;36;11;6;;6;5;1989-07-18;1989-07-17;FAIL;thaiorc.com;\n",
   "1990;2533;563;591;21;7;;7;;1990-07-07;1990-07-07;OK;thaiorc.com;\n",
   "1991;2534;356;454;2;8;3;8;;1991-07-26;1991-07-26;OK;thaiorc.com;\n",
   "1992;2535;149;317;13;9;;9;;1992-07-14;1992-07-14;OK;thaiorc.com;\n",
   "1993;2536;742;191;25;10;2;10;;1993-08-02;1993-08-02;OK;thaiorc.com;\n",
   "1994;2537;535;54;6;11;;11;5;1994-07-23;1994-07-22;FAIL;thaiorc.com, myhora.com;calendar is missing adhikavāra, passing with exception\n",
   "1995;2538;328;609;16;12;;12;;1995-07-12;1995-07-11;FAIL;thaiorc.com, myhora.com;\n",
   "1996;2539;121;472;27;13;3;13;;1996-07-30;1996-07-29;FAIL;thaiorc.com, myhora.com;\n",
   "1997;2540;714;346;9;14;;14;;1997-07-19;1997-07-19;OK;thaiorc.com, myhora.com;missing adhikavāra was added back here, passing with exception\n",
   "1998;2541;507;209;20;15;;15;;1998-07-08;1998-07-08;OK;thaiorc.com;\n",
   "1999;2542;300;72;1;16;3;16;x;1999-07-27;1999-07-27;OK;thaiorc.com;\n",
   "2000;2543;93;627;11;17;;17;6;2000-07-16;2000-07-16;OK;thaiorc.com;\n",
   "2001;2544;686;501;23;18;;18;;2001-07-05;2001-07-05;OK;fs-cal, thaiorc.com;\n",
   "2002;2545;479;364;4;19;3;19;;2002-07-24;2002-07-24;OK;thaiorc.com;\n",
   "2003;2546;272;227;15;1;;20;;2003-07-13;2003-07-13;OK;thaiorc.com;\n",
   "2004;2547;65;90;26;2;2;21;x;2004-07-31;2004-07-31;OK;fs-cal;\n",
   "2005;2548;658;656;7;3;;22;5;2005-07-21;2005-07-21;OK;fs-cal;\n",
   "2006;2549;451;519;18;4;;23;;2006-07-10;2006-07-10;OK;fs-cal;\n",
   "2007;2550;244;382;29;5;3;24;;2007-07-29;2007-07-29;OK;fs-cal;\n",
   "2008;2551;37;245;10;6;;25;;2008-07-17;2008-07-17;OK;fs-cal, bot.or.th;\n",
   "2009;2552;630;119;22;7;;26;4;2009-07-07;2009-07-07;OK;fs-cal, bot.or.th;\n",
   "2010;2553;423;674;2;8;3;27;;2010-07-26;2010-07-26;OK;fs-cal, bot.or.th;\n",
   "2011;2554;216;537;13;9;;28;;2011-07-15;2011-07-15;OK;fs-cal, bot.or.th;\n",
   "2012;2555;9;400;24;10;2;29;;2012-08-02;2012-08-02;OK;fs-cal, bot.or.th;\n",
   "2013;2556;602;274;6;11;;30;;2013-07-22;2013-07-22;OK;fs-cal, bot.or.th;\n",
   "2014;2557;395;137;17;12;;31;;2014-07-11;2014-07-11;OK;fs-cal, bot.or.th;\n",
   "2015;2558;188;0;28;13;3;32;x;2015-07-30;2015-07-30;OK;fs-cal, bot.or.th;\n",
   "2016;2559;781;566;9;14;;33;7;2016-07-19;2016-07-19;OK;fs-cal, bot.or.th, myhora.com;\n",
   "2017;2560;574;429;20;15;;34;;2017-07-08;;;;\n",
   "2018;2561;367;292;1;16;3;35;;2018-07-27;;;;\n",
   "2019;2562;160;155;12;17;;36;;2019-07-16;;;;\n",
   "2020;2563;753;29;24;18;;37;4;2020-07-05;;;;\n",
   "2021;2564;546;584;4;19;3;38;;2021-07-24;;;;\n",
   "2022;2565;339;447;15;1;;39;;2022-07-13;;;;\n",
   "2023;2566;132;310;26;2;2;40;;2023-08-01;;;;\n",
   "2024;2567;725;184;8;3;;41;;2024-07-20;;;;\n",
   "2025;2568;518;47;19;4;;42;5;2025-07-10;;;;\n",
   "2026;2569;311;602;29;5;3;43;;2026-07-29;;;;\n",
   "2027;2570;104;465;10;6;;44;;2027-07-18;;;;\n",
   "2028;2571;697;339;22;7;;45;;2028-07-06;;;;\n",
   "2029;2572;490;202;3;8;3;46;;2029-07-25;;;;\n",
   "2030;2573;283;65;14;9;;47;5;2030-07-15;;;;\n",
   "2031;2574;76;620;24;10;2;48;;2031-08-03;;;;\n",
   "2032;2575;669;494;6;11;;49;;2032-07-22;;;;\n",
   "2033;2576;462;357;17;12;;50;;2033-07-11;;;;\n",
   "2034;2577;255;220;28;13;3;51;;2034-07-30;;;;\n",
   "2035;2578;48;83;9;14;;52;5;2035-07-20;;;;\n",
   "2036;2579;641;649;20;15;;53;;2036-07-08;;;;\n",
   "2037;2580;434;512;1;16;3;54;;2037-07-27;;;;\n",
   "2038;2581;227;375;12;17;;55;;2038-07-16;;;;\n",
   "2039;2582;20;238;23;18;;56;;2039-07-05;;;;\n",
   "2040;2583;613;112;5;19;3;57;x;2040-07-23;;;;\n",
   "2041;2584;406;667;15;1;;1;6;2041-07-13;;;;\n"]

/-- The text of utils/years.csv. -/
def yearsFile : List Char := yearsFileLines.flatMap String.toList

end Verif.Spec

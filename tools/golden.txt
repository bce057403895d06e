C01	0	?a@?$?0H@@3HA
C02	0	??_H@YAXXZ
C02	0	??Z@YAXXZ
C04	0	?x@?$A@UB@@@@3HA
C05	0	@NODES2048
C05	0	@NODES2049
C07	0	?x@@3HA
C08	0	?x@@3HZ
C10	0	x@@3HA
C10	0	
C11	0	??@abc@??_R4@
C11	0	??@abc@??_R4
C11	0	??@abc@
C11	0	??@@
C12	0	??@abc
C13	0	??$f@$0A@@@YAXXZ
C13	0	??$f@$00@@YAXXZ
C13	0	??$f@$09@@YAXXZ
C13	0	??$f@$0?L@@@YAXXZ
C13	0	??$f@$0BAA@@@YAXXZ
C14	0	??$f@$0BAAAAAAAAAAAAAAAF@@@YAXXZ
C15	0	??$f@$FHPPPPPPPPPPPPPPP@A@@@YAXXZ
C15	0	??$f@$FIAAAAAAAAAAAAAAA@A@@@YAXXZ
C15	0	??$f@$F?IAAAAAAAAAAAAAAA@A@@@YAXXZ
C15	0	??$f@$GA@BA@CA@@@YAXXZ
C15	0	??$f@$FA@BA@@@YAXXZ
C16	0	?x@a@b@c@@3HA
C17	0	?x@@3HB
C17	0	?x@@3HC
C17	0	?x@@3PAY01HA
C17	0	?x@@3PBHB
C17	0	?x@@3PAUS@@A
C17	0	?x@@3P8S@@AEHXZQ1@
C18	0	?f@@YAHPAHZZ
C18	0	?f@@YAHZZ
C18	0	?f@@YAXXZ
C18	0	?f@@YGHHN@Z
C18	0	?f@S@@QBEHXZ
C18	0	?f@S@@UAEHXZ
C18	0	?f@S@@SAHXZ
C18	0	?f@@YAHP6AHH@Z@Z
C18	0	?f@@YAXX_E
C19	0	?x@a@b@0@3HA
C19	0	?x@a@b@1@3HA
C19	0	?f@@YAXUa@@Ub@@Uc@@Ud@@Ue@@Ug@@Uh@@Ui@@Uj@@U9@@Z
C19	0	?f@@YAXUa@@Ub@@Uc@@Ud@@Ue@@Ug@@Uh@@Ui@@Uj@@Uk@@U9@@Z
C19	0	?x@a@a@2@3HA
C19	0	?x@a@a@1@3HA
C19	0	?x@?Ak@a@1@3HA
C20	0	?f@@YAXPAHPAD0@Z
C20	0	?f@@YAXPAHPAD1@Z
C20	0	?f@@YAXHPAD0@Z
C20	0	?f@@YAXHPAD1@Z
C21	0	?x@?$a@Ub@@@c@0@3HA
C21	0	?x@?$a@Ub@@U1@@c@1@3HA
C21	0	?x@y@?$a@Ub@@U1@@1@3HA
C22	0	.?AUS@@
C22	0	.?AUS@@x
C22	0	??_R0H@8
C22	0	??_R0H@8x
C23	0	??_7S@@6B@
C23	0	??_8S@@7B@
C23	0	??_7S@@6BT@@@
C23	0	??_R4S@@6B@
C23	0	??_SS@@6B@
C24	0	??0S@@QAE@XZ
C24	0	??1S@N@@QAE@XZ
C25	0	??BS@@QAEHXZ
C25	0	??BS@@QBEPADXZ
C26	0	??_C@_02PCEFGMJL@hi?$AA@
C26	0	??_C@_13PCEFGMJL@?$AAh?$AAi?$AA?$AA@
C26	0	??_C@_1EA@PCEFGMJL@?$AAh?$AAi@
C26	0	??_C@_03PCEFGMJL@h?$AA?$AA@
C27	0	??_C@_02PCEFGMJL@?$HP?$AA@
C28	0	??_C@_0IB@ABCDEFGH@aaaaaaaaaaaaaaaaaaaaaaaaaaaaaaaaaaaaaaaaaaaaaaaaaaaaaaaaaaaaaaaaaaaaaaaaaaaaaaaaaaaaaaaaaaaaaaaaaaaaaaaaaaaaaaaaaaaaaaaaaaaaaaaaa@
C28	0	??_C@_0IB@ABCDEFGH@aaaaaaaaaaaaaaaaaaaaaaaaaaaaaaaaaaaaaaaaaaaaaaaaaaaaaaaaaaaaaaaaaaaaaaaaaaaaaaaaaaaaaaaaaaaaaaaaaaaaaaaaaaaaaaaaaaaaaaaaaaaaaaaa@
C30	0	?f@@YAHP6AHH@Z@Z
C30	0	?x@@3PAY01HA
C31	64	?f@S@@QBEHXZ
C31	32832	?f@S@@QBEHXZ
C32	256	?f@S@@QBEHPIAH@Z
C32	385	?f@S@@QBEHPIAH@Z
C33	512	?f@S@@QBEHX_E
C33	636	?f@S@@QBEHX_E
C35	512	?f@S@@QBEHX_E
C35	512	?f@S@@$4PPPPPPPM@A@EAAXXZ
C35	512	?x@N@@3HA
C36	0	??M@YAXXZ
C36	0	??N@YAXXZ
C36	0	??_U@YAXXZ
C36	0	??_V@YAXXZ
C36	0	??__M@YAXXZ
C36	0	??_W@YAXXZ
C36	0	??a@YAXXZ
C38	0	?f@S@@$4PPPPPPPM@BA@EAAXXZ
C38	0	?f@S@@$R4BA@CA@DA@EA@EAAXXZ
C38	0	?f@S@@WBAAAAAABA@EAAXXZ
C39	0	?x@@3HAjunk
C39	0	?f@@YAXXZjunk
C41	256	?f@@YAHPIAH@Z
C42	0	?x@@3Y01HA
C42	0	?x@@3Y112HA
C42	0	?x@@3YA@HA
C43	0	?x@?Akey@@3HA
C43	0	?x@?1??f@@YAHXZ@4HA
C43	0	?x@?BA@??f@@YAHXZ@4HA
C45	0	?x@@3HZ
C46	0	?x@@3PQS@@HQ1@
C46	0	??_9S@@$B7AA
C46	0	??_R1A@?0A@EA@S@@8
C46	0	??_BS@@5BA@
C46	0	??_BS@@51
C46	0	??__E?i@C@@0HA@@YAXXZ
C46	0	??__Ff@@YAXXZ
C46	0	??$f@$1?g@@YAXXZ@@YAXXZ
C46	0	??$f@$H?g@@YAXXZA@@@YAXXZ
C46	0	??$f@$E?g@@3HA@@YAXXZ
C46	0	??$f@$M_N0A@@@YAXXZ
C46	0	?x@@3U?$J@UN@@$HA@@@A
C46	0	?f@@YA?BUS@@XZ
C46	0	?x@@3PIEBHIB
C47	0	?f@@YAXPAHPAD0@Z
C34	0	?x@?$A@UB@@@?$A@VB@@@2@3HA
C34	2	?x@?$A@UB@@@?$A@VB@@@2@3HA
C34	1	?x@?$A@P6AXXZ@?$A@P6GXXZ@2@3HA
C34	16	?x@?$A@$1?f@@YAHXZ@?$A@$1?f@@YAXXZ@2@3HA
C34	2	?x@?$A@UB@@@?$A@VB@@@C@2@3HA
C34	0	?x@?1??f@A@@YAXPEAUB@2@0@Z@3UB@2@A
C34	1023	?x@?1??f@A@@YAXPEAUB@2@0@Z@3UB@2@A
C37	0	??_W@9
C37	8	??_W@9
C37	32	??_W@3HA
C37	512	??__0@YAXXZ
C37	512	.$$A6AXXZ
C37	1023	?f@A@@UAEXH@Z
C44	0	?x@?1??f@A@@QBEHPEIAUB@2@0@Z@3UB@2@A
C44	66	?x@?1??f@A@@QBEHPEIAUB@2@0@Z@3UB@2@A
C44	16	.$$A6APAY02HX_E
C44	0	?f@A@@UAEPAUB@@H@Z
C44	13	?f@A@@UAEPAUB@@H@Z
C44	16	?f@A@@UAEPAUB@@H@Z
C44	64	?f@A@@UBEPAUB@@H@Z
C44	32	?x@A@@2PAY02HA
C46	0	?f@@YA?AU?$S@H@@XZ
C46	256	?x@@3PIFAHIA
C17	0	?x@@3PDHD
C32	128	?f@@YAXPIFAH@Z
C18	0	?f@@YQXXZ
C18	0	?f@S@@IAEXXZ
C18	0	?f@S@@SAXXZ
C18	0	?f@S@@UAEXXZ
C35	512	??$f@H@@YAHXZ
C17	0	?x@@3P6AHXZA
C30	16	?f@@YAP6AHXZXZ
C44	16	?f@@YAP6AHXZXZ
C35	512	?f@S@@W7AEXXZ
C38	0	?f@S@@$R4A@7BA@7AEXXZ
C17	0	?x@@3TU@@A
C42	0	?x@@3PAY1A@0HA
C46	0	?x@@3U?$S@$F12@@A
C46	0	??_9S@@$B7AA
C46	0	??_B?1??f@@YAXXZ@50
C46	0	??_B?1??f@@YAXXZ@51
C24	0	??1A@B@@QAE@XZ
C24	0	??0A@B@C@@QAE@XZ
C46	0	?x@@3U?$S@$1?y@@3HA$E?z@@3HA@@A
C26	0	??_C@_03ABCD@abc?$AA@
C35	512	??_7S@@6B@
C44	4	?x@S@@2HA
C44	8	?x@S@@2HA
C18	0	?f@@YGXXZ
C18	0	?f@@YAXX_E
C17	0	?x@@3PEIFAHEIFA
C46	0	?x@@3U?$S@$$BH$$$VI$$V@@A
C48	0	?x@?$?0H@@3HA
C21	0	?x@@3U?$A@H@@A
C25	0	??B@3HA
C48	0	??_B?1??f@@YAXXZ@5BAAAAAAAA@
C48	0	??_R10IAAAAAAA@A@A@S@@8
C48	0	??__E?x@@3HA@@YAXXZ
C48	0	??__E?x@@3HA@YAXXZ
C16	0	?x@@4HA
C26	0	??_C@_05ABCD@?6?7?8a?$AA@
C26	0	??_C@_1EA@ABCD@?$AAa?$AA?$AA@
C27	0	??_C@_06ABCD@a?$AAb?$AAc?$AA?$AA?$AA@
C17	0	?x@@3PRS@@HR1@
C21	0	?f@?$A@H@@YAXU1@@Z
